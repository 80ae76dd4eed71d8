import Verif.Acc.Base
import Verif.Acc.Struct
import Verif.Acc.Src
/-! Generated by tools/accgen.py from the headers and src; do not edit by hand. -/
set_option maxRecDepth 100000
namespace Cglm.Acc

/-- the scalar build -/
def scalarFns : Tree Fn :=
 .node 1131 f_glms_ivec4_subs
 (.node 565 f_glm_persp_decomp_x_rh_zo
  (.node 282 f_glm_ivec2_mulsub
   (.node 141 f_glm_vec4_norm2
    (.node 70 f_glm_vec2_addsub
     (.node 35 f_glm_vec2_sign
      (.node 17 f_glm_smoothstep
       (.node 8 f_glm_max
        (.node 4 f_glm_make_rad
         (.node 2 f_glm_rad
          (.node 1 f_glm_signf
           (.node 0 f_glm_sign .leaf .leaf)
           .leaf)
          (.node 3 f_glm_deg .leaf .leaf))
         (.node 6 f_glm_pow2
          (.node 5 f_glm_make_deg .leaf .leaf)
          (.node 7 f_glm_min .leaf .leaf)))
        (.node 13 f_glm_lerp
         (.node 11 f_glm_clamp
          (.node 10 f_glm_imax
           (.node 9 f_glm_imin .leaf .leaf)
           .leaf)
          (.node 12 f_glm_clamp_zo .leaf .leaf))
         (.node 15 f_glm_step
          (.node 14 f_glm_lerpc .leaf .leaf)
          (.node 16 f_glm_smooth .leaf .leaf))))
       (.node 26 f_glm_vec2_eq_eps
        (.node 22 f_glm_percentc
         (.node 20 f_glm_eq
          (.node 19 f_glm_smoothinterpc
           (.node 18 f_glm_smoothinterp .leaf .leaf)
           .leaf)
          (.node 21 f_glm_percent .leaf .leaf))
         (.node 24 f_glm_vec2_fill
          (.node 23 f_glm_swapf .leaf .leaf)
          (.node 25 f_glm_vec2_eq .leaf .leaf)))
        (.node 31 f_glm_vec2_min
         (.node 29 f_glm_vec2_eqv_eps
          (.node 28 f_glm_vec2_eqv
           (.node 27 f_glm_vec2_eq_all .leaf .leaf)
           .leaf)
          (.node 30 f_glm_vec2_max .leaf .leaf))
         (.node 33 f_glm_vec2_isinf
          (.node 32 f_glm_vec2_isnan .leaf .leaf)
          (.node 34 f_glm_vec2_isvalid .leaf .leaf)))))
      (.node 53 f_glm_vec2_norm
       (.node 44 f_glm_vec2_complex_div
        (.node 40 f_glm_vec2_sqrt
         (.node 38 f_glm_vec2_floor
          (.node 37 f_glm_vec2_fract
           (.node 36 f_glm_vec2_abs .leaf .leaf)
           .leaf)
          (.node 39 f_glm_vec2_mods .leaf .leaf))
         (.node 42 f_glm_vec2_steps
          (.node 41 f_glm_vec2_complex_mul .leaf .leaf)
          (.node 43 f_glm_vec2_stepr .leaf .leaf)))
        (.node 49 f_glm_vec2_one
         (.node 47 f_glm_vec2_copy
          (.node 46 f_glm_vec2
           (.node 45 f_glm_vec2_complex_conjugate .leaf .leaf)
           .leaf)
          (.node 48 f_glm_vec2_zero .leaf .leaf))
         (.node 51 f_glm_vec2_cross
          (.node 50 f_glm_vec2_dot .leaf .leaf)
          (.node 52 f_glm_vec2_norm2 .leaf .leaf))))
       (.node 62 f_glm_vec2_divs
        (.node 58 f_glm_vec2_mul
         (.node 56 f_glm_vec2_sub
          (.node 55 f_glm_vec2_adds
           (.node 54 f_glm_vec2_add .leaf .leaf)
           .leaf)
          (.node 57 f_glm_vec2_subs .leaf .leaf))
         (.node 60 f_glm_vec2_scale_as
          (.node 59 f_glm_vec2_scale .leaf .leaf)
          (.node 61 f_glm_vec2_div .leaf .leaf)))
        (.node 66 f_glm_vec2_muladds
         (.node 64 f_glm_vec2_subadd
          (.node 63 f_glm_vec2_addadd .leaf .leaf)
          (.node 65 f_glm_vec2_muladd .leaf .leaf))
         (.node 68 f_glm_vec2_minadd
          (.node 67 f_glm_vec2_maxadd .leaf .leaf)
          (.node 69 f_glm_vec2_subsub .leaf .leaf))))))
     (.node 106 f_glm_vec3_fract
      (.node 88 f_glm_vec2_step
       (.node 79 f_glm_vec2_rotate
        (.node 75 f_glm_vec2_negate_to
         (.node 73 f_glm_vec2_maxsub
          (.node 72 f_glm_vec2_mulsubs
           (.node 71 f_glm_vec2_mulsub .leaf .leaf)
           .leaf)
          (.node 74 f_glm_vec2_minsub .leaf .leaf))
         (.node 77 f_glm_vec2_normalize
          (.node 76 f_glm_vec2_negate .leaf .leaf)
          (.node 78 f_glm_vec2_normalize_to .leaf .leaf)))
        (.node 84 f_glm_vec2_minv
         (.node 82 f_glm_vec2_distance
          (.node 81 f_glm_vec2_distance2
           (.node 80 f_glm_vec2_center .leaf .leaf)
           .leaf)
          (.node 83 f_glm_vec2_maxv .leaf .leaf))
         (.node 86 f_glm_vec2_swizzle
          (.node 85 f_glm_vec2_clamp .leaf .leaf)
          (.node 87 f_glm_vec2_lerp .leaf .leaf))))
       (.node 97 f_glm_vec3_eqv
        (.node 93 f_glm_vec3_fill
         (.node 91 f_glm_vec2_refract
          (.node 90 f_glm_vec2_reflect
           (.node 89 f_glm_vec2_make .leaf .leaf)
           .leaf)
          (.node 92 f_glm_vec3_broadcast .leaf .leaf))
         (.node 95 f_glm_vec3_eq_eps
          (.node 94 f_glm_vec3_eq .leaf .leaf)
          (.node 96 f_glm_vec3_eq_all .leaf .leaf)))
        (.node 102 f_glm_vec3_isinf
         (.node 100 f_glm_vec3_min
          (.node 99 f_glm_vec3_max
           (.node 98 f_glm_vec3_eqv_eps .leaf .leaf)
           .leaf)
          (.node 101 f_glm_vec3_isnan .leaf .leaf))
         (.node 104 f_glm_vec3_sign
          (.node 103 f_glm_vec3_isvalid .leaf .leaf)
          (.node 105 f_glm_vec3_abs .leaf .leaf)))))
      (.node 124 f_glm_vec4_isvalid
       (.node 115 f_glm_vec4_eq
        (.node 111 f_glm_vec3_hadd
         (.node 109 f_glm_vec3_steps
          (.node 108 f_glm_vec3_mods
           (.node 107 f_glm_vec3_floor .leaf .leaf)
           .leaf)
          (.node 110 f_glm_vec3_stepr .leaf .leaf))
         (.node 113 f_glm_vec4_broadcast
          (.node 112 f_glm_vec3_sqrt .leaf .leaf)
          (.node 114 f_glm_vec4_fill .leaf .leaf)))
        (.node 120 f_glm_vec4_max
         (.node 118 f_glm_vec4_eqv
          (.node 117 f_glm_vec4_eq_all
           (.node 116 f_glm_vec4_eq_eps .leaf .leaf)
           .leaf)
          (.node 119 f_glm_vec4_eqv_eps .leaf .leaf))
         (.node 122 f_glm_vec4_isnan
          (.node 121 f_glm_vec4_min .leaf .leaf)
          (.node 123 f_glm_vec4_isinf .leaf .leaf))))
       (.node 133 f_glm_vec4_sqrt
        (.node 129 f_glm_vec4_mods
         (.node 127 f_glm_vec4_fract
          (.node 126 f_glm_vec4_abs
           (.node 125 f_glm_vec4_sign .leaf .leaf)
           .leaf)
          (.node 128 f_glm_vec4_floor .leaf .leaf))
         (.node 131 f_glm_vec4_stepr
          (.node 130 f_glm_vec4_steps .leaf .leaf)
          (.node 132 f_glm_vec4_hadd .leaf .leaf)))
        (.node 137 f_glm_vec4_ucopy
         (.node 135 f_glm_vec4_copy3
          (.node 134 f_glm_vec4 .leaf .leaf)
          (.node 136 f_glm_vec4_copy .leaf .leaf))
         (.node 139 f_glm_vec4_one
          (.node 138 f_glm_vec4_zero .leaf .leaf)
          (.node 140 f_glm_vec4_dot .leaf .leaf)))))))
    (.node 212 f_glm_vec3_minadd
     (.node 177 f_glm_vec4_mix
      (.node 159 f_glm_vec4_minadd
       (.node 150 f_glm_vec4_scale
        (.node 146 f_glm_vec4_adds
         (.node 144 f_glm_vec4_norm_inf
          (.node 143 f_glm_vec4_norm_one
           (.node 142 f_glm_vec4_norm .leaf .leaf)
           .leaf)
          (.node 145 f_glm_vec4_add .leaf .leaf))
         (.node 148 f_glm_vec4_subs
          (.node 147 f_glm_vec4_sub .leaf .leaf)
          (.node 149 f_glm_vec4_mul .leaf .leaf)))
        (.node 155 f_glm_vec4_subadd
         (.node 153 f_glm_vec4_divs
          (.node 152 f_glm_vec4_div
           (.node 151 f_glm_vec4_scale_as .leaf .leaf)
           .leaf)
          (.node 154 f_glm_vec4_addadd .leaf .leaf))
         (.node 157 f_glm_vec4_muladds
          (.node 156 f_glm_vec4_muladd .leaf .leaf)
          (.node 158 f_glm_vec4_maxadd .leaf .leaf))))
       (.node 168 f_glm_vec4_normalize_to
        (.node 164 f_glm_vec4_maxsub
         (.node 162 f_glm_vec4_mulsub
          (.node 161 f_glm_vec4_addsub
           (.node 160 f_glm_vec4_subsub .leaf .leaf)
           .leaf)
          (.node 163 f_glm_vec4_mulsubs .leaf .leaf))
         (.node 166 f_glm_vec4_negate_to
          (.node 165 f_glm_vec4_minsub .leaf .leaf)
          (.node 167 f_glm_vec4_negate .leaf .leaf)))
        (.node 173 f_glm_vec4_minv
         (.node 171 f_glm_vec4_distance2
          (.node 170 f_glm_vec4_distance
           (.node 169 f_glm_vec4_normalize .leaf .leaf)
           .leaf)
          (.node 172 f_glm_vec4_maxv .leaf .leaf))
         (.node 175 f_glm_vec4_lerp
          (.node 174 f_glm_vec4_clamp .leaf .leaf)
          (.node 176 f_glm_vec4_lerpc .leaf .leaf)))))
      (.node 195 f_glm_vec3_norm
       (.node 186 f_glm_vec4_make
        (.node 182 f_glm_vec4_smoothinterp
         (.node 180 f_glm_vec4_smoothstep_uni
          (.node 179 f_glm_vec4_step
           (.node 178 f_glm_vec4_mixc .leaf .leaf)
           .leaf)
          (.node 181 f_glm_vec4_smoothstep .leaf .leaf))
         (.node 184 f_glm_vec4_cubic
          (.node 183 f_glm_vec4_smoothinterpc .leaf .leaf)
          (.node 185 f_glm_vec4_swizzle .leaf .leaf)))
        (.node 191 f_glm_vec3_zero
         (.node 189 f_glm_vec3
          (.node 188 f_glm_vec4_refract
           (.node 187 f_glm_vec4_reflect .leaf .leaf)
           .leaf)
          (.node 190 f_glm_vec3_copy .leaf .leaf))
         (.node 193 f_glm_vec3_dot
          (.node 192 f_glm_vec3_one .leaf .leaf)
          (.node 194 f_glm_vec3_norm2 .leaf .leaf))))
       (.node 204 f_glm_vec3_scale_as
        (.node 200 f_glm_vec3_sub
         (.node 198 f_glm_vec3_add
          (.node 197 f_glm_vec3_norm_inf
           (.node 196 f_glm_vec3_norm_one .leaf .leaf)
           .leaf)
          (.node 199 f_glm_vec3_adds .leaf .leaf))
         (.node 202 f_glm_vec3_mul
          (.node 201 f_glm_vec3_subs .leaf .leaf)
          (.node 203 f_glm_vec3_scale .leaf .leaf)))
        (.node 208 f_glm_vec3_subadd
         (.node 206 f_glm_vec3_divs
          (.node 205 f_glm_vec3_div .leaf .leaf)
          (.node 207 f_glm_vec3_addadd .leaf .leaf))
         (.node 210 f_glm_vec3_muladds
          (.node 209 f_glm_vec3_muladd .leaf .leaf)
          (.node 211 f_glm_vec3_maxadd .leaf .leaf))))))
     (.node 247 f_glm_cross
      (.node 230 f_glm_vec3_center
       (.node 221 f_glm_vec3_normalize
        (.node 217 f_glm_vec3_maxsub
         (.node 215 f_glm_vec3_mulsub
          (.node 214 f_glm_vec3_addsub
           (.node 213 f_glm_vec3_subsub .leaf .leaf)
           .leaf)
          (.node 216 f_glm_vec3_mulsubs .leaf .leaf))
         (.node 219 f_glm_vec3_negate_to
          (.node 218 f_glm_vec3_minsub .leaf .leaf)
          (.node 220 f_glm_vec3_negate .leaf .leaf)))
        (.node 226 f_glm_vec3_rotate
         (.node 224 f_glm_vec3_crossn
          (.node 223 f_glm_vec3_cross
           (.node 222 f_glm_vec3_normalize_to .leaf .leaf)
           .leaf)
          (.node 225 f_glm_vec3_angle .leaf .leaf))
         (.node 228 f_glm_vec3_rotate_m3
          (.node 227 f_glm_vec3_rotate_m4 .leaf .leaf)
          (.node 229 f_glm_vec3_proj .leaf .leaf))))
       (.node 239 f_glm_vec3_mix
        (.node 235 f_glm_vec3_ortho
         (.node 233 f_glm_vec3_maxv
          (.node 232 f_glm_vec3_distance
           (.node 231 f_glm_vec3_distance2 .leaf .leaf)
           .leaf)
          (.node 234 f_glm_vec3_minv .leaf .leaf))
         (.node 237 f_glm_vec3_lerp
          (.node 236 f_glm_vec3_clamp .leaf .leaf)
          (.node 238 f_glm_vec3_lerpc .leaf .leaf)))
        (.node 243 f_glm_vec3_smoothstep
         (.node 241 f_glm_vec3_step
          (.node 240 f_glm_vec3_mixc .leaf .leaf)
          (.node 242 f_glm_vec3_smoothstep_uni .leaf .leaf))
         (.node 245 f_glm_vec3_smoothinterpc
          (.node 244 f_glm_vec3_smoothinterp .leaf .leaf)
          (.node 246 f_glm_vec3_swizzle .leaf .leaf)))))
      (.node 265 f_glm_ivec2_mul
       (.node 256 f_glm_ivec2_copy
        (.node 252 f_glm_vec3_faceforward
         (.node 250 f_glm_normalize_to
          (.node 249 f_glm_normalize
           (.node 248 f_glm_dot .leaf .leaf)
           .leaf)
          (.node 251 f_glm_vec3_make .leaf .leaf))
         (.node 254 f_glm_vec3_refract
          (.node 253 f_glm_vec3_reflect .leaf .leaf)
          (.node 255 f_glm_ivec2 .leaf .leaf)))
        (.node 261 f_glm_ivec2_add
         (.node 259 f_glm_ivec2_dot
          (.node 258 f_glm_ivec2_one
           (.node 257 f_glm_ivec2_zero .leaf .leaf)
           .leaf)
          (.node 260 f_glm_ivec2_cross .leaf .leaf))
         (.node 263 f_glm_ivec2_sub
          (.node 262 f_glm_ivec2_adds .leaf .leaf)
          (.node 264 f_glm_ivec2_subs .leaf .leaf))))
       (.node 274 f_glm_ivec2_muladd
        (.node 270 f_glm_ivec2_addadd
         (.node 268 f_glm_ivec2_divs
          (.node 267 f_glm_ivec2_div
           (.node 266 f_glm_ivec2_scale .leaf .leaf)
           .leaf)
          (.node 269 f_glm_ivec2_mod .leaf .leaf))
         (.node 272 f_glm_ivec2_subadd
          (.node 271 f_glm_ivec2_addadds .leaf .leaf)
          (.node 273 f_glm_ivec2_subadds .leaf .leaf)))
        (.node 278 f_glm_ivec2_subsub
         (.node 276 f_glm_ivec2_maxadd
          (.node 275 f_glm_ivec2_muladds .leaf .leaf)
          (.node 277 f_glm_ivec2_minadd .leaf .leaf))
         (.node 280 f_glm_ivec2_addsub
          (.node 279 f_glm_ivec2_subsubs .leaf .leaf)
          (.node 281 f_glm_ivec2_addsubs .leaf .leaf))))))))
   (.node 424 f_glm_mat3_rmc
    (.node 353 f_glm_ivec4_minadd
     (.node 318 f_glm_ivec3_minadd
      (.node 300 f_glm_ivec3_norm2
       (.node 291 f_glm_ivec2_maxv
        (.node 287 f_glm_ivec2_distance
         (.node 285 f_glm_ivec2_minsub
          (.node 284 f_glm_ivec2_maxsub
           (.node 283 f_glm_ivec2_mulsubs .leaf .leaf)
           .leaf)
          (.node 286 f_glm_ivec2_distance2 .leaf .leaf))
         (.node 289 f_glm_ivec2_eq
          (.node 288 f_glm_ivec2_fill .leaf .leaf)
          (.node 290 f_glm_ivec2_eqv .leaf .leaf)))
        (.node 296 f_glm_ivec3_copy
         (.node 294 f_glm_ivec2_abs
          (.node 293 f_glm_ivec2_clamp
           (.node 292 f_glm_ivec2_minv .leaf .leaf)
           .leaf)
          (.node 295 f_glm_ivec3 .leaf .leaf))
         (.node 298 f_glm_ivec3_one
          (.node 297 f_glm_ivec3_zero .leaf .leaf)
          (.node 299 f_glm_ivec3_dot .leaf .leaf))))
       (.node 309 f_glm_ivec3_divs
        (.node 305 f_glm_ivec3_subs
         (.node 303 f_glm_ivec3_adds
          (.node 302 f_glm_ivec3_add
           (.node 301 f_glm_ivec3_norm .leaf .leaf)
           .leaf)
          (.node 304 f_glm_ivec3_sub .leaf .leaf))
         (.node 307 f_glm_ivec3_scale
          (.node 306 f_glm_ivec3_mul .leaf .leaf)
          (.node 308 f_glm_ivec3_div .leaf .leaf)))
        (.node 314 f_glm_ivec3_subadds
         (.node 312 f_glm_ivec3_addadds
          (.node 311 f_glm_ivec3_addadd
           (.node 310 f_glm_ivec3_mod .leaf .leaf)
           .leaf)
          (.node 313 f_glm_ivec3_subadd .leaf .leaf))
         (.node 316 f_glm_ivec3_muladds
          (.node 315 f_glm_ivec3_muladd .leaf .leaf)
          (.node 317 f_glm_ivec3_maxadd .leaf .leaf)))))
      (.node 336 f_glm_ivec4
       (.node 327 f_glm_ivec3_distance2
        (.node 323 f_glm_ivec3_mulsub
         (.node 321 f_glm_ivec3_addsub
          (.node 320 f_glm_ivec3_subsubs
           (.node 319 f_glm_ivec3_subsub .leaf .leaf)
           .leaf)
          (.node 322 f_glm_ivec3_addsubs .leaf .leaf))
         (.node 325 f_glm_ivec3_maxsub
          (.node 324 f_glm_ivec3_mulsubs .leaf .leaf)
          (.node 326 f_glm_ivec3_minsub .leaf .leaf)))
        (.node 332 f_glm_ivec3_maxv
         (.node 330 f_glm_ivec3_eq
          (.node 329 f_glm_ivec3_fill
           (.node 328 f_glm_ivec3_distance .leaf .leaf)
           .leaf)
          (.node 331 f_glm_ivec3_eqv .leaf .leaf))
         (.node 334 f_glm_ivec3_clamp
          (.node 333 f_glm_ivec3_minv .leaf .leaf)
          (.node 335 f_glm_ivec3_abs .leaf .leaf))))
       (.node 345 f_glm_ivec4_scale
        (.node 341 f_glm_ivec4_adds
         (.node 339 f_glm_ivec4_one
          (.node 338 f_glm_ivec4_zero
           (.node 337 f_glm_ivec4_copy .leaf .leaf)
           .leaf)
          (.node 340 f_glm_ivec4_add .leaf .leaf))
         (.node 343 f_glm_ivec4_subs
          (.node 342 f_glm_ivec4_sub .leaf .leaf)
          (.node 344 f_glm_ivec4_mul .leaf .leaf)))
        (.node 349 f_glm_ivec4_subadds
         (.node 347 f_glm_ivec4_addadds
          (.node 346 f_glm_ivec4_addadd .leaf .leaf)
          (.node 348 f_glm_ivec4_subadd .leaf .leaf))
         (.node 351 f_glm_ivec4_muladds
          (.node 350 f_glm_ivec4_muladd .leaf .leaf)
          (.node 352 f_glm_ivec4_maxadd .leaf .leaf))))))
     (.node 389 f_glm_mat4_inv_fast
      (.node 371 f_glm_mat4_identity_array
       (.node 362 f_glm_ivec4_distance2
        (.node 358 f_glm_ivec4_mulsub
         (.node 356 f_glm_ivec4_addsub
          (.node 355 f_glm_ivec4_subsubs
           (.node 354 f_glm_ivec4_subsub .leaf .leaf)
           .leaf)
          (.node 357 f_glm_ivec4_addsubs .leaf .leaf))
         (.node 360 f_glm_ivec4_maxsub
          (.node 359 f_glm_ivec4_mulsubs .leaf .leaf)
          (.node 361 f_glm_ivec4_minsub .leaf .leaf)))
        (.node 367 f_glm_ivec4_abs
         (.node 365 f_glm_ivec4_minv
          (.node 364 f_glm_ivec4_maxv
           (.node 363 f_glm_ivec4_distance .leaf .leaf)
           .leaf)
          (.node 366 f_glm_ivec4_clamp .leaf .leaf))
         (.node 369 f_glm_mat4_copy
          (.node 368 f_glm_mat4_ucopy .leaf .leaf)
          (.node 370 f_glm_mat4_identity .leaf .leaf))))
       (.node 380 f_glm_mat4_trace3
        (.node 376 f_glm_mat4_mul
         (.node 374 f_glm_mat4_pick3t
          (.node 373 f_glm_mat4_pick3
           (.node 372 f_glm_mat4_zero .leaf .leaf)
           .leaf)
          (.node 375 f_glm_mat4_ins3 .leaf .leaf))
         (.node 378 f_glm_mat4_mulv
          (.node 377 f_glm_mat4_mulN .leaf .leaf)
          (.node 379 f_glm_mat4_trace .leaf .leaf)))
        (.node 385 f_glm_mat4_scale_p
         (.node 383 f_glm_mat4_transpose_to
          (.node 382 f_glm_mat4_mulv3
           (.node 381 f_glm_mat4_quat .leaf .leaf)
           .leaf)
          (.node 384 f_glm_mat4_transpose .leaf .leaf))
         (.node 387 f_glm_mat4_det
          (.node 386 f_glm_mat4_scale .leaf .leaf)
          (.node 388 f_glm_mat4_inv .leaf .leaf)))))
      (.node 407 f_glm_mat4x3_transpose
       (.node 398 f_glm_mat4x2_mul
        (.node 394 f_glm_mat4_textrans
         (.node 392 f_glm_mat4_rmc
          (.node 391 f_glm_mat4_swap_row
           (.node 390 f_glm_mat4_swap_col .leaf .leaf)
           .leaf)
          (.node 393 f_glm_mat4_make .leaf .leaf))
         (.node 396 f_glm_mat4x2_zero
          (.node 395 f_glm_mat4x2_copy .leaf .leaf)
          (.node 397 f_glm_mat4x2_make .leaf .leaf)))
        (.node 403 f_glm_mat4x3_zero
         (.node 401 f_glm_mat4x2_scale
          (.node 400 f_glm_mat4x2_transpose
           (.node 399 f_glm_mat4x2_mulv .leaf .leaf)
           .leaf)
          (.node 402 f_glm_mat4x3_copy .leaf .leaf))
         (.node 405 f_glm_mat4x3_mul
          (.node 404 f_glm_mat4x3_make .leaf .leaf)
          (.node 406 f_glm_mat4x3_mulv .leaf .leaf))))
       (.node 416 f_glm_mat3_mulv
        (.node 412 f_glm_mat3_zero
         (.node 410 f_glm_mat3_identity
          (.node 409 f_glm_mat3_copy
           (.node 408 f_glm_mat4x3_scale .leaf .leaf)
           .leaf)
          (.node 411 f_glm_mat3_identity_array .leaf .leaf))
         (.node 414 f_glm_mat3_transpose_to
          (.node 413 f_glm_mat3_mul .leaf .leaf)
          (.node 415 f_glm_mat3_transpose .leaf .leaf)))
        (.node 420 f_glm_mat3_det
         (.node 418 f_glm_mat3_quat
          (.node 417 f_glm_mat3_trace .leaf .leaf)
          (.node 419 f_glm_mat3_scale .leaf .leaf))
         (.node 422 f_glm_mat3_swap_col
          (.node 421 f_glm_mat3_inv .leaf .leaf)
          (.node 423 f_glm_mat3_swap_row .leaf .leaf)))))))
    (.node 495 f_glm_spin
     (.node 460 f_glm_mat2x3_mul
      (.node 442 f_glm_mat2_copy
       (.node 433 f_glm_mat3x2_scale
        (.node 429 f_glm_mat3x2_make
         (.node 427 f_glm_mat3x2_copy
          (.node 426 f_glm_mat3_textrans
           (.node 425 f_glm_mat3_make .leaf .leaf)
           .leaf)
          (.node 428 f_glm_mat3x2_zero .leaf .leaf))
         (.node 431 f_glm_mat3x2_mulv
          (.node 430 f_glm_mat3x2_mul .leaf .leaf)
          (.node 432 f_glm_mat3x2_transpose .leaf .leaf)))
        (.node 438 f_glm_mat3x4_mulv
         (.node 436 f_glm_mat3x4_make
          (.node 435 f_glm_mat3x4_zero
           (.node 434 f_glm_mat3x4_copy .leaf .leaf)
           .leaf)
          (.node 437 f_glm_mat3x4_mul .leaf .leaf))
         (.node 440 f_glm_mat3x4_scale
          (.node 439 f_glm_mat3x4_transpose .leaf .leaf)
          (.node 441 f_glm_mat2_make .leaf .leaf))))
       (.node 451 f_glm_mat2_inv
        (.node 447 f_glm_mat2_mulv
         (.node 445 f_glm_mat2_zero
          (.node 444 f_glm_mat2_identity_array
           (.node 443 f_glm_mat2_identity .leaf .leaf)
           .leaf)
          (.node 446 f_glm_mat2_mul .leaf .leaf))
         (.node 449 f_glm_mat2_transpose
          (.node 448 f_glm_mat2_transpose_to .leaf .leaf)
          (.node 450 f_glm_mat2_scale .leaf .leaf)))
        (.node 456 f_glm_mat2_rmc
         (.node 454 f_glm_mat2_det
          (.node 453 f_glm_mat2_swap_row
           (.node 452 f_glm_mat2_swap_col .leaf .leaf)
           .leaf)
          (.node 455 f_glm_mat2_trace .leaf .leaf))
         (.node 458 f_glm_mat2x3_zero
          (.node 457 f_glm_mat2x3_copy .leaf .leaf)
          (.node 459 f_glm_mat2x3_make .leaf .leaf)))))
      (.node 478 f_glm_scale_uni
       (.node 469 f_glm_mat2x4_transpose
        (.node 465 f_glm_mat2x4_zero
         (.node 463 f_glm_mat2x3_scale
          (.node 462 f_glm_mat2x3_transpose
           (.node 461 f_glm_mat2x3_mulv .leaf .leaf)
           .leaf)
          (.node 464 f_glm_mat2x4_copy .leaf .leaf))
         (.node 467 f_glm_mat2x4_mul
          (.node 466 f_glm_mat2x4_make .leaf .leaf)
          (.node 468 f_glm_mat2x4_mulv .leaf .leaf)))
        (.node 474 f_glm_translate_make
         (.node 472 f_glm_mul_rot
          (.node 471 f_glm_mul
           (.node 470 f_glm_mat2x4_scale .leaf .leaf)
           .leaf)
          (.node 473 f_glm_inv_tr .leaf .leaf))
         (.node 476 f_glm_scale_make
          (.node 475 f_glm_scale_to .leaf .leaf)
          (.node 477 f_glm_scale .leaf .leaf))))
       (.node 487 f_glm_translate_y
        (.node 483 f_glm_decompose
         (.node 481 f_glm_uniscaled
          (.node 480 f_glm_decompose_scalev
           (.node 479 f_glm_rotate_make .leaf .leaf)
           .leaf)
          (.node 482 f_glm_decompose_rs .leaf .leaf))
         (.node 485 f_glm_translate_to
          (.node 484 f_glm_translate .leaf .leaf)
          (.node 486 f_glm_translate_x .leaf .leaf)))
        (.node 491 f_glm_rotate_z
         (.node 489 f_glm_rotate_x
          (.node 488 f_glm_translate_z .leaf .leaf)
          (.node 490 f_glm_rotate_y .leaf .leaf))
         (.node 493 f_glm_rotate_at
          (.node 492 f_glm_rotate .leaf .leaf)
          (.node 494 f_glm_rotate_atm .leaf .leaf))))))
     (.node 530 f_glm_persp_aspect_lh_zo
      (.node 513 f_glm_ortho_aabb_pz_lh_zo
       (.node 504 f_glm_rotated
        (.node 500 f_glm_translated_z
         (.node 498 f_glm_translated_x
          (.node 497 f_glm_translated_to
           (.node 496 f_glm_translated .leaf .leaf)
           .leaf)
          (.node 499 f_glm_translated_y .leaf .leaf))
         (.node 502 f_glm_rotated_y
          (.node 501 f_glm_rotated_x .leaf .leaf)
          (.node 503 f_glm_rotated_z .leaf .leaf)))
        (.node 509 f_glm_persp_aspect
         (.node 507 f_glm_plane_normalize
          (.node 506 f_glm_spinned
           (.node 505 f_glm_rotated_at .leaf .leaf)
           .leaf)
          (.node 508 f_glm_persp_fovy .leaf .leaf))
         (.node 511 f_glm_ortho_aabb_lh_zo
          (.node 510 f_glm_ortho_lh_zo .leaf .leaf)
          (.node 512 f_glm_ortho_aabb_p_lh_zo .leaf .leaf))))
       (.node 522 f_glm_persp_decompv_lh_zo
        (.node 518 f_glm_persp_move_far_lh_zo
         (.node 516 f_glm_frustum_lh_zo
          (.node 515 f_glm_ortho_default_s_lh_zo
           (.node 514 f_glm_ortho_default_lh_zo .leaf .leaf)
           .leaf)
          (.node 517 f_glm_perspective_lh_zo .leaf .leaf))
         (.node 520 f_glm_perspective_resize_lh_zo
          (.node 519 f_glm_perspective_default_lh_zo .leaf .leaf)
          (.node 521 f_glm_persp_decomp_lh_zo .leaf .leaf)))
        (.node 526 f_glm_persp_decomp_far_lh_zo
         (.node 524 f_glm_persp_decomp_y_lh_zo
          (.node 523 f_glm_persp_decomp_x_lh_zo .leaf .leaf)
          (.node 525 f_glm_persp_decomp_z_lh_zo .leaf .leaf))
         (.node 528 f_glm_persp_sizes_lh_zo
          (.node 527 f_glm_persp_decomp_near_lh_zo .leaf .leaf)
          (.node 529 f_glm_persp_fovy_lh_zo .leaf .leaf)))))
      (.node 548 f_glm_persp_decomp_near_lh_no
       (.node 539 f_glm_perspective_default_lh_no
        (.node 535 f_glm_ortho_default_lh_no
         (.node 533 f_glm_ortho_aabb_p_lh_no
          (.node 532 f_glm_ortho_aabb_lh_no
           (.node 531 f_glm_ortho_lh_no .leaf .leaf)
           .leaf)
          (.node 534 f_glm_ortho_aabb_pz_lh_no .leaf .leaf))
         (.node 537 f_glm_frustum_lh_no
          (.node 536 f_glm_ortho_default_s_lh_no .leaf .leaf)
          (.node 538 f_glm_perspective_lh_no .leaf .leaf)))
        (.node 544 f_glm_persp_decomp_x_lh_no
         (.node 542 f_glm_persp_decomp_lh_no
          (.node 541 f_glm_persp_move_far_lh_no
           (.node 540 f_glm_perspective_resize_lh_no .leaf .leaf)
           .leaf)
          (.node 543 f_glm_persp_decompv_lh_no .leaf .leaf))
         (.node 546 f_glm_persp_decomp_z_lh_no
          (.node 545 f_glm_persp_decomp_y_lh_no .leaf .leaf)
          (.node 547 f_glm_persp_decomp_far_lh_no .leaf .leaf))))
       (.node 557 f_glm_ortho_default_s_rh_zo
        (.node 553 f_glm_ortho_aabb_rh_zo
         (.node 551 f_glm_persp_aspect_lh_no
          (.node 550 f_glm_persp_fovy_lh_no
           (.node 549 f_glm_persp_sizes_lh_no .leaf .leaf)
           .leaf)
          (.node 552 f_glm_ortho_rh_zo .leaf .leaf))
         (.node 555 f_glm_ortho_aabb_pz_rh_zo
          (.node 554 f_glm_ortho_aabb_p_rh_zo .leaf .leaf)
          (.node 556 f_glm_ortho_default_rh_zo .leaf .leaf)))
        (.node 561 f_glm_perspective_resize_rh_zo
         (.node 559 f_glm_perspective_rh_zo
          (.node 558 f_glm_frustum_rh_zo .leaf .leaf)
          (.node 560 f_glm_perspective_default_rh_zo .leaf .leaf))
         (.node 563 f_glm_persp_decomp_rh_zo
          (.node 562 f_glm_persp_move_far_rh_zo .leaf .leaf)
          (.node 564 f_glm_persp_decompv_rh_zo .leaf .leaf)))))))))
  (.node 848 f_glms_vec2_scale
   (.node 707 f_glm_aabb2d_crop
    (.node 636 f_glm_frustum_center
     (.node 601 f_glm_look_lh_no
      (.node 583 f_glm_persp_move_far_rh_no
       (.node 574 f_glm_ortho_aabb_rh_no
        (.node 570 f_glm_persp_sizes_rh_zo
         (.node 568 f_glm_persp_decomp_far_rh_zo
          (.node 567 f_glm_persp_decomp_z_rh_zo
           (.node 566 f_glm_persp_decomp_y_rh_zo .leaf .leaf)
           .leaf)
          (.node 569 f_glm_persp_decomp_near_rh_zo .leaf .leaf))
         (.node 572 f_glm_persp_aspect_rh_zo
          (.node 571 f_glm_persp_fovy_rh_zo .leaf .leaf)
          (.node 573 f_glm_ortho_rh_no .leaf .leaf)))
        (.node 579 f_glm_frustum_rh_no
         (.node 577 f_glm_ortho_default_rh_no
          (.node 576 f_glm_ortho_aabb_pz_rh_no
           (.node 575 f_glm_ortho_aabb_p_rh_no .leaf .leaf)
           .leaf)
          (.node 578 f_glm_ortho_default_s_rh_no .leaf .leaf))
         (.node 581 f_glm_perspective_default_rh_no
          (.node 580 f_glm_perspective_rh_no .leaf .leaf)
          (.node 582 f_glm_perspective_resize_rh_no .leaf .leaf))))
       (.node 592 f_glm_persp_fovy_rh_no
        (.node 588 f_glm_persp_decomp_z_rh_no
         (.node 586 f_glm_persp_decomp_x_rh_no
          (.node 585 f_glm_persp_decompv_rh_no
           (.node 584 f_glm_persp_decomp_rh_no .leaf .leaf)
           .leaf)
          (.node 587 f_glm_persp_decomp_y_rh_no .leaf .leaf))
         (.node 590 f_glm_persp_decomp_near_rh_no
          (.node 589 f_glm_persp_decomp_far_rh_no .leaf .leaf)
          (.node 591 f_glm_persp_sizes_rh_no .leaf .leaf)))
        (.node 597 f_glm_lookat_lh_zo
         (.node 595 f_glm_look_lh
          (.node 594 f_glm_lookat_lh
           (.node 593 f_glm_persp_aspect_rh_no .leaf .leaf)
           .leaf)
          (.node 596 f_glm_look_anyup_lh .leaf .leaf))
         (.node 599 f_glm_look_anyup_lh_zo
          (.node 598 f_glm_look_lh_zo .leaf .leaf)
          (.node 600 f_glm_lookat_lh_no .leaf .leaf)))))
      (.node 619 f_glm_perspective
       (.node 610 f_glm_look_rh_no
        (.node 606 f_glm_lookat_rh_zo
         (.node 604 f_glm_look_rh
          (.node 603 f_glm_lookat_rh
           (.node 602 f_glm_look_anyup_lh_no .leaf .leaf)
           .leaf)
          (.node 605 f_glm_look_anyup_rh .leaf .leaf))
         (.node 608 f_glm_look_anyup_rh_zo
          (.node 607 f_glm_look_rh_zo .leaf .leaf)
          (.node 609 f_glm_lookat_rh_no .leaf .leaf)))
        (.node 615 f_glm_ortho_aabb_p
         (.node 613 f_glm_ortho
          (.node 612 f_glm_frustum
           (.node 611 f_glm_look_anyup_rh_no .leaf .leaf)
           .leaf)
          (.node 614 f_glm_ortho_aabb .leaf .leaf))
         (.node 617 f_glm_ortho_default
          (.node 616 f_glm_ortho_aabb_pz .leaf .leaf)
          (.node 618 f_glm_ortho_default_s .leaf .leaf))))
       (.node 628 f_glm_persp_decomp_x
        (.node 624 f_glm_look
         (.node 622 f_glm_perspective_resize
          (.node 621 f_glm_perspective_default
           (.node 620 f_glm_persp_move_far .leaf .leaf)
           .leaf)
          (.node 623 f_glm_lookat .leaf .leaf))
         (.node 626 f_glm_persp_decomp
          (.node 625 f_glm_look_anyup .leaf .leaf)
          (.node 627 f_glm_persp_decompv .leaf .leaf)))
        (.node 632 f_glm_persp_decomp_near
         (.node 630 f_glm_persp_decomp_z
          (.node 629 f_glm_persp_decomp_y .leaf .leaf)
          (.node 631 f_glm_persp_decomp_far .leaf .leaf))
         (.node 634 f_glm_frustum_planes
          (.node 633 f_glm_persp_sizes .leaf .leaf)
          (.node 635 f_glm_frustum_corners .leaf .leaf))))))
     (.node 672 f_glm_quat_forp
      (.node 654 f_glm_quat_real
       (.node 645 f_glm_quat_from_vecs
        (.node 641 f_glm_quat_init
         (.node 639 f_glm_quat_identity
          (.node 638 f_glm_frustum_corners_at
           (.node 637 f_glm_frustum_box .leaf .leaf)
           .leaf)
          (.node 640 f_glm_quat_identity_array .leaf .leaf))
         (.node 643 f_glm_quat
          (.node 642 f_glm_quatv .leaf .leaf)
          (.node 644 f_glm_quat_copy .leaf .leaf)))
        (.node 650 f_glm_quat_conjugate
         (.node 648 f_glm_quat_normalize
          (.node 647 f_glm_quat_normalize_to
           (.node 646 f_glm_quat_norm .leaf .leaf)
           .leaf)
          (.node 649 f_glm_quat_dot .leaf .leaf))
         (.node 652 f_glm_quat_add
          (.node 651 f_glm_quat_inv .leaf .leaf)
          (.node 653 f_glm_quat_sub .leaf .leaf))))
       (.node 663 f_glm_quat_mat3
        (.node 659 f_glm_quat_axis
         (.node 657 f_glm_quat_imaglen
          (.node 656 f_glm_quat_imagn
           (.node 655 f_glm_quat_imag .leaf .leaf)
           .leaf)
          (.node 658 f_glm_quat_angle .leaf .leaf))
         (.node 661 f_glm_quat_mat4
          (.node 660 f_glm_quat_mul .leaf .leaf)
          (.node 662 f_glm_quat_mat4t .leaf .leaf)))
        (.node 668 f_glm_quat_slerp
         (.node 666 f_glm_quat_lerpc
          (.node 665 f_glm_quat_lerp
           (.node 664 f_glm_quat_mat3t .leaf .leaf)
           .leaf)
          (.node 667 f_glm_quat_nlerp .leaf .leaf))
         (.node 670 f_glm_quat_look
          (.node 669 f_glm_quat_slerp_longest .leaf .leaf)
          (.node 671 f_glm_quat_for .leaf .leaf)))))
      (.node 690 f_glm_euler_yzx
       (.node 681 f_glm_euler_yzx_quat_rh
        (.node 677 f_glm_quat_make
         (.node 675 f_glm_quat_rotate_at
          (.node 674 f_glm_quat_rotate
           (.node 673 f_glm_quat_rotatev .leaf .leaf)
           .leaf)
          (.node 676 f_glm_quat_rotate_atm .leaf .leaf))
         (.node 679 f_glm_euler_xzy_quat_rh
          (.node 678 f_glm_euler_xyz_quat_rh .leaf .leaf)
          (.node 680 f_glm_euler_yxz_quat_rh .leaf .leaf)))
        (.node 686 f_glm_euler_xyz
         (.node 684 f_glm_euler_order
          (.node 683 f_glm_euler_zyx_quat_rh
           (.node 682 f_glm_euler_zxy_quat_rh .leaf .leaf)
           .leaf)
          (.node 685 f_glm_euler_angles .leaf .leaf))
         (.node 688 f_glm_euler_xzy
          (.node 687 f_glm_euler .leaf .leaf)
          (.node 689 f_glm_euler_yxz .leaf .leaf))))
       (.node 699 f_glm_euler_zyx_quat
        (.node 695 f_glm_euler_xzy_quat
         (.node 693 f_glm_euler_by_order
          (.node 692 f_glm_euler_zyx
           (.node 691 f_glm_euler_zxy .leaf .leaf)
           .leaf)
          (.node 694 f_glm_euler_xyz_quat .leaf .leaf))
         (.node 697 f_glm_euler_yzx_quat
          (.node 696 f_glm_euler_yxz_quat .leaf .leaf)
          (.node 698 f_glm_euler_zxy_quat .leaf .leaf)))
        (.node 703 f_glm_aabb2d_zero
         (.node 701 f_glm_perlin_vec3
          (.node 700 f_glm_perlin_vec4 .leaf .leaf)
          (.node 702 f_glm_perlin_vec2 .leaf .leaf))
         (.node 705 f_glm_aabb2d_transform
          (.node 704 f_glm_aabb2d_copy .leaf .leaf)
          (.node 706 f_glm_aabb2d_merge .leaf .leaf)))))))
    (.node 778 f_glm_ease_bounce_out
     (.node 743 f_glm_project_z
      (.node 725 f_glm_aabb_isvalid
       (.node 716 f_glm_aabb2d_circle
        (.node 712 f_glm_aabb2d_sizev
         (.node 710 f_glm_aabb2d_isvalid
          (.node 709 f_glm_aabb2d_invalidate
           (.node 708 f_glm_aabb2d_crop_until .leaf .leaf)
           .leaf)
          (.node 711 f_glm_aabb2d_diag .leaf .leaf))
         (.node 714 f_glm_aabb2d_center
          (.node 713 f_glm_aabb2d_radius .leaf .leaf)
          (.node 715 f_glm_aabb2d_aabb .leaf .leaf)))
        (.node 721 f_glm_aabb_crop
         (.node 719 f_glm_aabb_transform
          (.node 718 f_glm_aabb2d_contains
           (.node 717 f_glm_aabb2d_point .leaf .leaf)
           .leaf)
          (.node 720 f_glm_aabb_merge .leaf .leaf))
         (.node 723 f_glm_aabb_frustum
          (.node 722 f_glm_aabb_crop_until .leaf .leaf)
          (.node 724 f_glm_aabb_invalidate .leaf .leaf))))
       (.node 734 f_glm_unprojecti_zo
        (.node 730 f_glm_aabb_sphere
         (.node 728 f_glm_aabb_center
          (.node 727 f_glm_aabb_radius
           (.node 726 f_glm_aabb_size .leaf .leaf)
           .leaf)
          (.node 729 f_glm_aabb_aabb .leaf .leaf))
         (.node 732 f_glm_aabb_contains
          (.node 731 f_glm_aabb_point .leaf .leaf)
          (.node 733 f_glm_luminance .leaf .leaf)))
        (.node 739 f_glm_project_z_no
         (.node 737 f_glm_unprojecti_no
          (.node 736 f_glm_project_z_zo
           (.node 735 f_glm_project_zo .leaf .leaf)
           .leaf)
          (.node 738 f_glm_project_no .leaf .leaf))
         (.node 741 f_glm_unproject
          (.node 740 f_glm_unprojecti .leaf .leaf)
          (.node 742 f_glm_project .leaf .leaf)))))
      (.node 761 f_glm_ease_quart_out
       (.node 752 f_glm_ease_sine_out
        (.node 748 f_glm_sphere_sphere
         (.node 746 f_glm_sphere_transform
          (.node 745 f_glm_sphere_radii
           (.node 744 f_glm_pickmatrix .leaf .leaf)
           .leaf)
          (.node 747 f_glm_sphere_merge .leaf .leaf))
         (.node 750 f_glm_ease_linear
          (.node 749 f_glm_sphere_point .leaf .leaf)
          (.node 751 f_glm_ease_sine_in .leaf .leaf)))
        (.node 757 f_glm_ease_cubic_in
         (.node 755 f_glm_ease_quad_out
          (.node 754 f_glm_ease_quad_in
           (.node 753 f_glm_ease_sine_inout .leaf .leaf)
           .leaf)
          (.node 756 f_glm_ease_quad_inout .leaf .leaf))
         (.node 759 f_glm_ease_cubic_inout
          (.node 758 f_glm_ease_cubic_out .leaf .leaf)
          (.node 760 f_glm_ease_quart_in .leaf .leaf))))
       (.node 770 f_glm_ease_circ_out
        (.node 766 f_glm_ease_exp_in
         (.node 764 f_glm_ease_quint_out
          (.node 763 f_glm_ease_quint_in
           (.node 762 f_glm_ease_quart_inout .leaf .leaf)
           .leaf)
          (.node 765 f_glm_ease_quint_inout .leaf .leaf))
         (.node 768 f_glm_ease_exp_inout
          (.node 767 f_glm_ease_exp_out .leaf .leaf)
          (.node 769 f_glm_ease_circ_in .leaf .leaf)))
        (.node 774 f_glm_ease_back_inout
         (.node 772 f_glm_ease_back_in
          (.node 771 f_glm_ease_circ_inout .leaf .leaf)
          (.node 773 f_glm_ease_back_out .leaf .leaf))
         (.node 776 f_glm_ease_elast_out
          (.node 775 f_glm_ease_elast_in .leaf .leaf)
          (.node 777 f_glm_ease_elast_inout .leaf .leaf))))))
     (.node 813 f_glms_vec2_eq
      (.node 796 f_glm_scale2d_uni
       (.node 787 f_glm_ray_at
        (.node 783 f_glm_hermite
         (.node 781 f_glm_smc
          (.node 780 f_glm_ease_bounce_inout
           (.node 779 f_glm_ease_bounce_in .leaf .leaf)
           .leaf)
          (.node 782 f_glm_bezier .leaf .leaf))
         (.node 785 f_glm_ray_triangle
          (.node 784 f_glm_decasteljau .leaf .leaf)
          (.node 786 f_glm_ray_sphere .leaf .leaf)))
        (.node 792 f_glm_translate2d_make
         (.node 790 f_glm_translate2d_x
          (.node 789 f_glm_translate2d_to
           (.node 788 f_glm_translate2d .leaf .leaf)
           .leaf)
          (.node 791 f_glm_translate2d_y .leaf .leaf))
         (.node 794 f_glm_scale2d_make
          (.node 793 f_glm_scale2d_to .leaf .leaf)
          (.node 795 f_glm_scale2d .leaf .leaf))))
       (.node 805 f_glm_scaled2d_uni
        (.node 801 f_glm_translated2d_x
         (.node 799 f_glm_rotate2d_to
          (.node 798 f_glm_rotate2d
           (.node 797 f_glm_rotate2d_make .leaf .leaf)
           .leaf)
          (.node 800 f_glm_translated2d .leaf .leaf))
         (.node 803 f_glm_rotated2d
          (.node 802 f_glm_translated2d_y .leaf .leaf)
          (.node 804 f_glm_scaled2d .leaf .leaf)))
        (.node 809 f_glm_euler_yzx_quat_lh
         (.node 807 f_glm_euler_xzy_quat_lh
          (.node 806 f_glm_euler_xyz_quat_lh .leaf .leaf)
          (.node 808 f_glm_euler_yxz_quat_lh .leaf .leaf))
         (.node 811 f_glm_euler_zyx_quat_lh
          (.node 810 f_glm_euler_zxy_quat_lh .leaf .leaf)
          (.node 812 f_glms_vec2_fill .leaf .leaf)))))
      (.node 831 f_glms_vec2_complex_mul
       (.node 822 f_glms_vec2_isvalid
        (.node 818 f_glms_vec2_max
         (.node 816 f_glms_vec2_eqv
          (.node 815 f_glms_vec2_eq_all
           (.node 814 f_glms_vec2_eq_eps .leaf .leaf)
           .leaf)
          (.node 817 f_glms_vec2_eqv_eps .leaf .leaf))
         (.node 820 f_glms_vec2_isnan
          (.node 819 f_glms_vec2_min .leaf .leaf)
          (.node 821 f_glms_vec2_isinf .leaf .leaf)))
        (.node 827 f_glms_vec2_mods
         (.node 825 f_glms_vec2_fract
          (.node 824 f_glms_vec2_abs
           (.node 823 f_glms_vec2_sign .leaf .leaf)
           .leaf)
          (.node 826 f_glms_vec2_floor .leaf .leaf))
         (.node 829 f_glms_vec2_stepr
          (.node 828 f_glms_vec2_steps .leaf .leaf)
          (.node 830 f_glms_vec2_sqrt .leaf .leaf))))
       (.node 840 f_glms_vec2_cross
        (.node 836 f_glms_vec2_unpack
         (.node 834 f_glms_vec2
          (.node 833 f_glms_vec2_complex_conjugate
           (.node 832 f_glms_vec2_complex_div .leaf .leaf)
           .leaf)
          (.node 835 f_glms_vec2_pack .leaf .leaf))
         (.node 838 f_glms_vec2_one
          (.node 837 f_glms_vec2_zero .leaf .leaf)
          (.node 839 f_glms_vec2_dot .leaf .leaf)))
        (.node 844 f_glms_vec2_adds
         (.node 842 f_glms_vec2_norm
          (.node 841 f_glms_vec2_norm2 .leaf .leaf)
          (.node 843 f_glms_vec2_add .leaf .leaf))
         (.node 846 f_glms_vec2_subs
          (.node 845 f_glms_vec2_sub .leaf .leaf)
          (.node 847 f_glms_vec2_mul .leaf .leaf))))))))
   (.node 990 f_glms_vec4_unpack
    (.node 919 f_glms_vec3_subadd
     (.node 884 f_glms_vec3_eqv_eps
      (.node 866 f_glms_vec2_rotate
       (.node 857 f_glms_vec2_minadd
        (.node 853 f_glms_vec2_subadd
         (.node 851 f_glms_vec2_divs
          (.node 850 f_glms_vec2_div
           (.node 849 f_glms_vec2_scale_as .leaf .leaf)
           .leaf)
          (.node 852 f_glms_vec2_addadd .leaf .leaf))
         (.node 855 f_glms_vec2_muladds
          (.node 854 f_glms_vec2_muladd .leaf .leaf)
          (.node 856 f_glms_vec2_maxadd .leaf .leaf)))
        (.node 862 f_glms_vec2_maxsub
         (.node 860 f_glms_vec2_mulsub
          (.node 859 f_glms_vec2_addsub
           (.node 858 f_glms_vec2_subsub .leaf .leaf)
           .leaf)
          (.node 861 f_glms_vec2_mulsubs .leaf .leaf))
         (.node 864 f_glms_vec2_negate
          (.node 863 f_glms_vec2_minsub .leaf .leaf)
          (.node 865 f_glms_vec2_normalize .leaf .leaf))))
       (.node 875 f_glms_vec2_make
        (.node 871 f_glms_vec2_minv
         (.node 869 f_glms_vec2_distance2
          (.node 868 f_glms_vec2_distance
           (.node 867 f_glms_vec2_center .leaf .leaf)
           .leaf)
          (.node 870 f_glms_vec2_maxv .leaf .leaf))
         (.node 873 f_glms_vec2_lerp
          (.node 872 f_glms_vec2_clamp .leaf .leaf)
          (.node 874 f_glms_vec2_step .leaf .leaf)))
        (.node 880 f_glms_vec3_eq
         (.node 878 f_glms_vec3_broadcast
          (.node 877 f_glms_vec2_refract
           (.node 876 f_glms_vec2_reflect .leaf .leaf)
           .leaf)
          (.node 879 f_glms_vec3_fill .leaf .leaf))
         (.node 882 f_glms_vec3_eq_all
          (.node 881 f_glms_vec3_eq_eps .leaf .leaf)
          (.node 883 f_glms_vec3_eqv .leaf .leaf)))))
      (.node 902 f_glms_vec3_zero
       (.node 893 f_glms_vec3_floor
        (.node 889 f_glms_vec3_isvalid
         (.node 887 f_glms_vec3_isnan
          (.node 886 f_glms_vec3_min
           (.node 885 f_glms_vec3_max .leaf .leaf)
           .leaf)
          (.node 888 f_glms_vec3_isinf .leaf .leaf))
         (.node 891 f_glms_vec3_abs
          (.node 890 f_glms_vec3_sign .leaf .leaf)
          (.node 892 f_glms_vec3_fract .leaf .leaf)))
        (.node 898 f_glms_vec3_sqrt
         (.node 896 f_glms_vec3_stepr
          (.node 895 f_glms_vec3_steps
           (.node 894 f_glms_vec3_mods .leaf .leaf)
           .leaf)
          (.node 897 f_glms_vec3_hadd .leaf .leaf))
         (.node 900 f_glms_vec3_pack
          (.node 899 f_glms_vec3 .leaf .leaf)
          (.node 901 f_glms_vec3_unpack .leaf .leaf))))
       (.node 911 f_glms_vec3_sub
        (.node 907 f_glms_vec3_norm_one
         (.node 905 f_glms_vec3_norm2
          (.node 904 f_glms_vec3_dot
           (.node 903 f_glms_vec3_one .leaf .leaf)
           .leaf)
          (.node 906 f_glms_vec3_norm .leaf .leaf))
         (.node 909 f_glms_vec3_add
          (.node 908 f_glms_vec3_norm_inf .leaf .leaf)
          (.node 910 f_glms_vec3_adds .leaf .leaf)))
        (.node 915 f_glms_vec3_scale_as
         (.node 913 f_glms_vec3_mul
          (.node 912 f_glms_vec3_subs .leaf .leaf)
          (.node 914 f_glms_vec3_scale .leaf .leaf))
         (.node 917 f_glms_vec3_divs
          (.node 916 f_glms_vec3_div .leaf .leaf)
          (.node 918 f_glms_vec3_addadd .leaf .leaf))))))
     (.node 955 f_glms_vec3_smoothinterpc
      (.node 937 f_glms_vec3_rotate_m4
       (.node 928 f_glms_vec3_maxsub
        (.node 924 f_glms_vec3_subsub
         (.node 922 f_glms_vec3_maxadd
          (.node 921 f_glms_vec3_muladds
           (.node 920 f_glms_vec3_muladd .leaf .leaf)
           .leaf)
          (.node 923 f_glms_vec3_minadd .leaf .leaf))
         (.node 926 f_glms_vec3_mulsub
          (.node 925 f_glms_vec3_addsub .leaf .leaf)
          (.node 927 f_glms_vec3_mulsubs .leaf .leaf)))
        (.node 933 f_glms_vec3_cross
         (.node 931 f_glms_vec3_negate
          (.node 930 f_glms_vec3_flipsign
           (.node 929 f_glms_vec3_minsub .leaf .leaf)
           .leaf)
          (.node 932 f_glms_vec3_normalize .leaf .leaf))
         (.node 935 f_glms_vec3_angle
          (.node 934 f_glms_vec3_crossn .leaf .leaf)
          (.node 936 f_glms_vec3_rotate .leaf .leaf))))
       (.node 946 f_glms_vec3_clamp
        (.node 942 f_glms_vec3_distance2
         (.node 940 f_glms_vec3_center
          (.node 939 f_glms_vec3_proj
           (.node 938 f_glms_vec3_rotate_m3 .leaf .leaf)
           .leaf)
          (.node 941 f_glms_vec3_distance .leaf .leaf))
         (.node 944 f_glms_vec3_minv
          (.node 943 f_glms_vec3_maxv .leaf .leaf)
          (.node 945 f_glms_vec3_ortho .leaf .leaf)))
        (.node 951 f_glms_vec3_step
         (.node 949 f_glms_vec3_mix
          (.node 948 f_glms_vec3_lerpc
           (.node 947 f_glms_vec3_lerp .leaf .leaf)
           .leaf)
          (.node 950 f_glms_vec3_mixc .leaf .leaf))
         (.node 953 f_glms_vec3_smoothstep
          (.node 952 f_glms_vec3_smoothstep_uni .leaf .leaf)
          (.node 954 f_glms_vec3_smoothinterp .leaf .leaf)))))
      (.node 973 f_glms_vec4_isnan
       (.node 964 f_glms_vec4_broadcast
        (.node 960 f_glms_vec3_make
         (.node 958 f_glms_normalize
          (.node 957 f_glms_dot
           (.node 956 f_glms_cross .leaf .leaf)
           .leaf)
          (.node 959 f_glms_vec3_swizzle .leaf .leaf))
         (.node 962 f_glms_vec3_reflect
          (.node 961 f_glms_vec3_faceforward .leaf .leaf)
          (.node 963 f_glms_vec3_refract .leaf .leaf)))
        (.node 969 f_glms_vec4_eqv
         (.node 967 f_glms_vec4_eq_eps
          (.node 966 f_glms_vec4_eq
           (.node 965 f_glms_vec4_fill .leaf .leaf)
           .leaf)
          (.node 968 f_glms_vec4_eq_all .leaf .leaf))
         (.node 971 f_glms_vec4_max
          (.node 970 f_glms_vec4_eqv_eps .leaf .leaf)
          (.node 972 f_glms_vec4_min .leaf .leaf))))
       (.node 982 f_glms_vec4_stepr
        (.node 978 f_glms_vec4_fract
         (.node 976 f_glms_vec4_sign
          (.node 975 f_glms_vec4_isvalid
           (.node 974 f_glms_vec4_isinf .leaf .leaf)
           .leaf)
          (.node 977 f_glms_vec4_abs .leaf .leaf))
         (.node 980 f_glms_vec4_mods
          (.node 979 f_glms_vec4_floor .leaf .leaf)
          (.node 981 f_glms_vec4_steps .leaf .leaf)))
        (.node 986 f_glms_vec4_copy3
         (.node 984 f_glms_vec4_sqrt
          (.node 983 f_glms_vec4_hadd .leaf .leaf)
          (.node 985 f_glms_vec4 .leaf .leaf))
         (.node 988 f_glms_vec4_ucopy
          (.node 987 f_glms_vec4_copy .leaf .leaf)
          (.node 989 f_glms_vec4_pack .leaf .leaf)))))))
    (.node 1061 f_glms_ivec2_muladds
     (.node 1026 f_glms_vec4_lerp
      (.node 1008 f_glms_vec4_subadd
       (.node 999 f_glms_vec4_adds
        (.node 995 f_glms_vec4_norm
         (.node 993 f_glms_vec4_dot
          (.node 992 f_glms_vec4_one
           (.node 991 f_glms_vec4_zero .leaf .leaf)
           .leaf)
          (.node 994 f_glms_vec4_norm2 .leaf .leaf))
         (.node 997 f_glms_vec4_norm_inf
          (.node 996 f_glms_vec4_norm_one .leaf .leaf)
          (.node 998 f_glms_vec4_add .leaf .leaf)))
        (.node 1004 f_glms_vec4_scale_as
         (.node 1002 f_glms_vec4_mul
          (.node 1001 f_glms_vec4_subs
           (.node 1000 f_glms_vec4_sub .leaf .leaf)
           .leaf)
          (.node 1003 f_glms_vec4_scale .leaf .leaf))
         (.node 1006 f_glms_vec4_divs
          (.node 1005 f_glms_vec4_div .leaf .leaf)
          (.node 1007 f_glms_vec4_addadd .leaf .leaf))))
       (.node 1017 f_glms_vec4_maxsub
        (.node 1013 f_glms_vec4_subsub
         (.node 1011 f_glms_vec4_maxadd
          (.node 1010 f_glms_vec4_muladds
           (.node 1009 f_glms_vec4_muladd .leaf .leaf)
           .leaf)
          (.node 1012 f_glms_vec4_minadd .leaf .leaf))
         (.node 1015 f_glms_vec4_mulsub
          (.node 1014 f_glms_vec4_addsub .leaf .leaf)
          (.node 1016 f_glms_vec4_mulsubs .leaf .leaf)))
        (.node 1022 f_glms_vec4_distance2
         (.node 1020 f_glms_vec4_normalize
          (.node 1019 f_glms_vec4_negate
           (.node 1018 f_glms_vec4_minsub .leaf .leaf)
           .leaf)
          (.node 1021 f_glms_vec4_distance .leaf .leaf))
         (.node 1024 f_glms_vec4_minv
          (.node 1023 f_glms_vec4_maxv .leaf .leaf)
          (.node 1025 f_glms_vec4_clamp .leaf .leaf)))))
      (.node 1044 f_glms_ivec2_one
       (.node 1035 f_glms_vec4_cubic
        (.node 1031 f_glms_vec4_smoothstep_uni
         (.node 1029 f_glms_vec4_mixc
          (.node 1028 f_glms_vec4_mix
           (.node 1027 f_glms_vec4_lerpc .leaf .leaf)
           .leaf)
          (.node 1030 f_glms_vec4_step .leaf .leaf))
         (.node 1033 f_glms_vec4_smoothinterp
          (.node 1032 f_glms_vec4_smoothstep .leaf .leaf)
          (.node 1034 f_glms_vec4_smoothinterpc .leaf .leaf)))
        (.node 1040 f_glms_ivec2
         (.node 1038 f_glms_vec4_reflect
          (.node 1037 f_glms_vec4_make
           (.node 1036 f_glms_vec4_swizzle .leaf .leaf)
           .leaf)
          (.node 1039 f_glms_vec4_refract .leaf .leaf))
         (.node 1042 f_glms_ivec2_unpack
          (.node 1041 f_glms_ivec2_pack .leaf .leaf)
          (.node 1043 f_glms_ivec2_zero .leaf .leaf))))
       (.node 1053 f_glms_ivec2_div
        (.node 1049 f_glms_ivec2_sub
         (.node 1047 f_glms_ivec2_add
          (.node 1046 f_glms_ivec2_cross
           (.node 1045 f_glms_ivec2_dot .leaf .leaf)
           .leaf)
          (.node 1048 f_glms_ivec2_adds .leaf .leaf))
         (.node 1051 f_glms_ivec2_mul
          (.node 1050 f_glms_ivec2_subs .leaf .leaf)
          (.node 1052 f_glms_ivec2_scale .leaf .leaf)))
        (.node 1057 f_glms_ivec2_addadds
         (.node 1055 f_glms_ivec2_mod
          (.node 1054 f_glms_ivec2_divs .leaf .leaf)
          (.node 1056 f_glms_ivec2_addadd .leaf .leaf))
         (.node 1059 f_glms_ivec2_subadds
          (.node 1058 f_glms_ivec2_subadd .leaf .leaf)
          (.node 1060 f_glms_ivec2_muladd .leaf .leaf))))))
     (.node 1096 f_glms_ivec3_divs
      (.node 1079 f_glms_ivec2_clamp
       (.node 1070 f_glms_ivec2_maxsub
        (.node 1066 f_glms_ivec2_addsub
         (.node 1064 f_glms_ivec2_subsub
          (.node 1063 f_glms_ivec2_minadd
           (.node 1062 f_glms_ivec2_maxadd .leaf .leaf)
           .leaf)
          (.node 1065 f_glms_ivec2_subsubs .leaf .leaf))
         (.node 1068 f_glms_ivec2_mulsub
          (.node 1067 f_glms_ivec2_addsubs .leaf .leaf)
          (.node 1069 f_glms_ivec2_mulsubs .leaf .leaf)))
        (.node 1075 f_glms_ivec2_eq
         (.node 1073 f_glms_ivec2_distance
          (.node 1072 f_glms_ivec2_distance2
           (.node 1071 f_glms_ivec2_minsub .leaf .leaf)
           .leaf)
          (.node 1074 f_glms_ivec2_fill .leaf .leaf))
         (.node 1077 f_glms_ivec2_maxv
          (.node 1076 f_glms_ivec2_eqv .leaf .leaf)
          (.node 1078 f_glms_ivec2_minv .leaf .leaf))))
       (.node 1088 f_glms_ivec3_norm
        (.node 1084 f_glms_ivec3_zero
         (.node 1082 f_glms_ivec3_pack
          (.node 1081 f_glms_ivec3
           (.node 1080 f_glms_ivec2_abs .leaf .leaf)
           .leaf)
          (.node 1083 f_glms_ivec3_unpack .leaf .leaf))
         (.node 1086 f_glms_ivec3_dot
          (.node 1085 f_glms_ivec3_one .leaf .leaf)
          (.node 1087 f_glms_ivec3_norm2 .leaf .leaf)))
        (.node 1092 f_glms_ivec3_subs
         (.node 1090 f_glms_ivec3_adds
          (.node 1089 f_glms_ivec3_add .leaf .leaf)
          (.node 1091 f_glms_ivec3_sub .leaf .leaf))
         (.node 1094 f_glms_ivec3_scale
          (.node 1093 f_glms_ivec3_mul .leaf .leaf)
          (.node 1095 f_glms_ivec3_div .leaf .leaf)))))
      (.node 1114 f_glms_ivec3_distance2
       (.node 1105 f_glms_ivec3_minadd
        (.node 1101 f_glms_ivec3_subadds
         (.node 1099 f_glms_ivec3_addadds
          (.node 1098 f_glms_ivec3_addadd
           (.node 1097 f_glms_ivec3_mod .leaf .leaf)
           .leaf)
          (.node 1100 f_glms_ivec3_subadd .leaf .leaf))
         (.node 1103 f_glms_ivec3_muladds
          (.node 1102 f_glms_ivec3_muladd .leaf .leaf)
          (.node 1104 f_glms_ivec3_maxadd .leaf .leaf)))
        (.node 1110 f_glms_ivec3_mulsub
         (.node 1108 f_glms_ivec3_addsub
          (.node 1107 f_glms_ivec3_subsubs
           (.node 1106 f_glms_ivec3_subsub .leaf .leaf)
           .leaf)
          (.node 1109 f_glms_ivec3_addsubs .leaf .leaf))
         (.node 1112 f_glms_ivec3_maxsub
          (.node 1111 f_glms_ivec3_mulsubs .leaf .leaf)
          (.node 1113 f_glms_ivec3_minsub .leaf .leaf))))
       (.node 1123 f_glms_ivec4
        (.node 1119 f_glms_ivec3_maxv
         (.node 1117 f_glms_ivec3_eq
          (.node 1116 f_glms_ivec3_fill
           (.node 1115 f_glms_ivec3_distance .leaf .leaf)
           .leaf)
          (.node 1118 f_glms_ivec3_eqv .leaf .leaf))
         (.node 1121 f_glms_ivec3_clamp
          (.node 1120 f_glms_ivec3_minv .leaf .leaf)
          (.node 1122 f_glms_ivec3_abs .leaf .leaf)))
        (.node 1127 f_glms_ivec4_one
         (.node 1125 f_glms_ivec4_unpack
          (.node 1124 f_glms_ivec4_pack .leaf .leaf)
          (.node 1126 f_glms_ivec4_zero .leaf .leaf))
         (.node 1129 f_glms_ivec4_adds
          (.node 1128 f_glms_ivec4_add .leaf .leaf)
          (.node 1130 f_glms_ivec4_sub .leaf .leaf))))))))))
 (.node 1697 f_glmc_ivec2_subadd
  (.node 1414 f_glms_look
   (.node 1273 f_glms_translated_x
    (.node 1202 f_glms_mat3x2_mulv
     (.node 1167 f_glms_mat2_det
      (.node 1149 f_glms_ivec4_minsub
       (.node 1140 f_glms_ivec4_maxadd
        (.node 1136 f_glms_ivec4_subadd
         (.node 1134 f_glms_ivec4_addadd
          (.node 1133 f_glms_ivec4_scale
           (.node 1132 f_glms_ivec4_mul .leaf .leaf)
           .leaf)
          (.node 1135 f_glms_ivec4_addadds .leaf .leaf))
         (.node 1138 f_glms_ivec4_muladd
          (.node 1137 f_glms_ivec4_subadds .leaf .leaf)
          (.node 1139 f_glms_ivec4_muladds .leaf .leaf)))
        (.node 1145 f_glms_ivec4_addsubs
         (.node 1143 f_glms_ivec4_subsubs
          (.node 1142 f_glms_ivec4_subsub
           (.node 1141 f_glms_ivec4_minadd .leaf .leaf)
           .leaf)
          (.node 1144 f_glms_ivec4_addsub .leaf .leaf))
         (.node 1147 f_glms_ivec4_mulsubs
          (.node 1146 f_glms_ivec4_mulsub .leaf .leaf)
          (.node 1148 f_glms_ivec4_maxsub .leaf .leaf))))
       (.node 1158 f_glms_mat2_identity_array
        (.node 1154 f_glms_ivec4_clamp
         (.node 1152 f_glms_ivec4_maxv
          (.node 1151 f_glms_ivec4_distance
           (.node 1150 f_glms_ivec4_distance2 .leaf .leaf)
           .leaf)
          (.node 1153 f_glms_ivec4_minv .leaf .leaf))
         (.node 1156 f_glms_mat2_make
          (.node 1155 f_glms_ivec4_abs .leaf .leaf)
          (.node 1157 f_glms_mat2_identity .leaf .leaf)))
        (.node 1163 f_glms_mat2_scale
         (.node 1161 f_glms_mat2_mulv
          (.node 1160 f_glms_mat2_mul
           (.node 1159 f_glms_mat2_zero .leaf .leaf)
           .leaf)
          (.node 1162 f_glms_mat2_transpose .leaf .leaf))
         (.node 1165 f_glms_mat2_swap_col
          (.node 1164 f_glms_mat2_inv .leaf .leaf)
          (.node 1166 f_glms_mat2_swap_row .leaf .leaf)))))
      (.node 1185 f_glms_mat3_zero
       (.node 1176 f_glms_mat2x4_zero
        (.node 1172 f_glms_mat2x3_mul
         (.node 1170 f_glms_mat2x3_zero
          (.node 1169 f_glms_mat2_rmc
           (.node 1168 f_glms_mat2_trace .leaf .leaf)
           .leaf)
          (.node 1171 f_glms_mat2x3_make .leaf .leaf))
         (.node 1174 f_glms_mat2x3_transpose
          (.node 1173 f_glms_mat2x3_mulv .leaf .leaf)
          (.node 1175 f_glms_mat2x3_scale .leaf .leaf)))
        (.node 1181 f_glms_mat2x4_scale
         (.node 1179 f_glms_mat2x4_mulv
          (.node 1178 f_glms_mat2x4_mul
           (.node 1177 f_glms_mat2x4_make .leaf .leaf)
           .leaf)
          (.node 1180 f_glms_mat2x4_transpose .leaf .leaf))
         (.node 1183 f_glms_mat3_identity
          (.node 1182 f_glms_mat3_copy .leaf .leaf)
          (.node 1184 f_glms_mat3_identity_array .leaf .leaf))))
       (.node 1194 f_glms_mat3_swap_col
        (.node 1190 f_glms_mat3_quat
         (.node 1188 f_glms_mat3_mulv
          (.node 1187 f_glms_mat3_transpose
           (.node 1186 f_glms_mat3_mul .leaf .leaf)
           .leaf)
          (.node 1189 f_glms_mat3_trace .leaf .leaf))
         (.node 1192 f_glms_mat3_det
          (.node 1191 f_glms_mat3_scale .leaf .leaf)
          (.node 1193 f_glms_mat3_inv .leaf .leaf)))
        (.node 1198 f_glms_mat3_textrans
         (.node 1196 f_glms_mat3_rmc
          (.node 1195 f_glms_mat3_swap_row .leaf .leaf)
          (.node 1197 f_glms_mat3_make .leaf .leaf))
         (.node 1200 f_glms_mat3x2_make
          (.node 1199 f_glms_mat3x2_zero .leaf .leaf)
          (.node 1201 f_glms_mat3x2_mul .leaf .leaf))))))
     (.node 1238 f_glms_mat4x2_make
      (.node 1220 f_glms_mat4_mulN
       (.node 1211 f_glms_mat4_ucopy
        (.node 1207 f_glms_mat3x4_mul
         (.node 1205 f_glms_mat3x4_zero
          (.node 1204 f_glms_mat3x2_scale
           (.node 1203 f_glms_mat3x2_transpose .leaf .leaf)
           .leaf)
          (.node 1206 f_glms_mat3x4_make .leaf .leaf))
         (.node 1209 f_glms_mat3x4_transpose
          (.node 1208 f_glms_mat3x4_mulv .leaf .leaf)
          (.node 1210 f_glms_mat3x4_scale .leaf .leaf)))
        (.node 1216 f_glms_mat4_pick3
         (.node 1214 f_glms_mat4_identity_array
          (.node 1213 f_glms_mat4_identity
           (.node 1212 f_glms_mat4_copy .leaf .leaf)
           .leaf)
          (.node 1215 f_glms_mat4_zero .leaf .leaf))
         (.node 1218 f_glms_mat4_ins3
          (.node 1217 f_glms_mat4_pick3t .leaf .leaf)
          (.node 1219 f_glms_mat4_mul .leaf .leaf))))
       (.node 1229 f_glms_mat4_det
        (.node 1225 f_glms_mat4_mulv3
         (.node 1223 f_glms_mat4_trace3
          (.node 1222 f_glms_mat4_trace
           (.node 1221 f_glms_mat4_mulv .leaf .leaf)
           .leaf)
          (.node 1224 f_glms_mat4_quat .leaf .leaf))
         (.node 1227 f_glms_mat4_scale_p
          (.node 1226 f_glms_mat4_transpose .leaf .leaf)
          (.node 1228 f_glms_mat4_scale .leaf .leaf)))
        (.node 1234 f_glms_mat4_rmc
         (.node 1232 f_glms_mat4_swap_col
          (.node 1231 f_glms_mat4_inv_fast
           (.node 1230 f_glms_mat4_inv .leaf .leaf)
           .leaf)
          (.node 1233 f_glms_mat4_swap_row .leaf .leaf))
         (.node 1236 f_glms_mat4_textrans
          (.node 1235 f_glms_mat4_make .leaf .leaf)
          (.node 1237 f_glms_mat4x2_zero .leaf .leaf)))))
      (.node 1256 f_glms_rotate_make
       (.node 1247 f_glms_mat4x3_transpose
        (.node 1243 f_glms_mat4x3_zero
         (.node 1241 f_glms_mat4x2_transpose
          (.node 1240 f_glms_mat4x2_mulv
           (.node 1239 f_glms_mat4x2_mul .leaf .leaf)
           .leaf)
          (.node 1242 f_glms_mat4x2_scale .leaf .leaf))
         (.node 1245 f_glms_mat4x3_mul
          (.node 1244 f_glms_mat4x3_make .leaf .leaf)
          (.node 1246 f_glms_mat4x3_mulv .leaf .leaf)))
        (.node 1252 f_glms_translate_make
         (.node 1250 f_glms_mul_rot
          (.node 1249 f_glms_mul
           (.node 1248 f_glms_mat4x3_scale .leaf .leaf)
           .leaf)
          (.node 1251 f_glms_inv_tr .leaf .leaf))
         (.node 1254 f_glms_scale
          (.node 1253 f_glms_scale_make .leaf .leaf)
          (.node 1255 f_glms_scale_uni .leaf .leaf))))
       (.node 1265 f_glms_translate_z
        (.node 1261 f_glms_decompose
         (.node 1259 f_glms_uniscaled
          (.node 1258 f_glms_decompose_scalev
           (.node 1257 f_glms_rotate_atm .leaf .leaf)
           .leaf)
          (.node 1260 f_glms_decompose_rs .leaf .leaf))
         (.node 1263 f_glms_translate_x
          (.node 1262 f_glms_translate .leaf .leaf)
          (.node 1264 f_glms_translate_y .leaf .leaf)))
        (.node 1269 f_glms_rotate
         (.node 1267 f_glms_rotate_y
          (.node 1266 f_glms_rotate_x .leaf .leaf)
          (.node 1268 f_glms_rotate_z .leaf .leaf))
         (.node 1271 f_glms_spin
          (.node 1270 f_glms_rotate_at .leaf .leaf)
          (.node 1272 f_glms_translated .leaf .leaf)))))))
    (.node 1344 f_glms_persp_decomp_near_lh_no
     (.node 1309 f_glms_ortho_aabb_pz_lh_zo
      (.node 1291 f_glms_aabb_transform
       (.node 1282 f_glms_plane_normalize
        (.node 1278 f_glms_rotated_z
         (.node 1276 f_glms_rotated_x
          (.node 1275 f_glms_translated_z
           (.node 1274 f_glms_translated_y .leaf .leaf)
           .leaf)
          (.node 1277 f_glms_rotated_y .leaf .leaf))
         (.node 1280 f_glms_rotated_at
          (.node 1279 f_glms_rotated .leaf .leaf)
          (.node 1281 f_glms_spinned .leaf .leaf)))
        (.node 1287 f_glms_frustum_corners_at
         (.node 1285 f_glms_frustum_center
          (.node 1284 f_glms_frustum_corners
           (.node 1283 f_glms_frustum_planes .leaf .leaf)
           .leaf)
          (.node 1286 f_glms_frustum_box .leaf .leaf))
         (.node 1289 f_glms_perlin_vec3
          (.node 1288 f_glms_perlin_vec4 .leaf .leaf)
          (.node 1290 f_glms_perlin_vec2 .leaf .leaf))))
       (.node 1300 f_glms_aabb_center
        (.node 1296 f_glms_aabb_invalidate
         (.node 1294 f_glms_aabb_crop_until
          (.node 1293 f_glms_aabb_crop
           (.node 1292 f_glms_aabb_merge .leaf .leaf)
           .leaf)
          (.node 1295 f_glms_aabb_frustum .leaf .leaf))
         (.node 1298 f_glms_aabb_size
          (.node 1297 f_glms_aabb_isvalid .leaf .leaf)
          (.node 1299 f_glms_aabb_radius .leaf .leaf)))
        (.node 1305 f_glms_luminance
         (.node 1303 f_glms_aabb_point
          (.node 1302 f_glms_aabb_sphere
           (.node 1301 f_glms_aabb_aabb .leaf .leaf)
           .leaf)
          (.node 1304 f_glms_aabb_contains .leaf .leaf))
         (.node 1307 f_glms_ortho_aabb_lh_zo
          (.node 1306 f_glms_ortho_lh_zo .leaf .leaf)
          (.node 1308 f_glms_ortho_aabb_p_lh_zo .leaf .leaf)))))
      (.node 1327 f_glms_ortho_lh_no
       (.node 1318 f_glms_persp_decompv_lh_zo
        (.node 1314 f_glms_persp_move_far_lh_zo
         (.node 1312 f_glms_frustum_lh_zo
          (.node 1311 f_glms_ortho_default_s_lh_zo
           (.node 1310 f_glms_ortho_default_lh_zo .leaf .leaf)
           .leaf)
          (.node 1313 f_glms_perspective_lh_zo .leaf .leaf))
         (.node 1316 f_glms_perspective_resize_lh_zo
          (.node 1315 f_glms_perspective_default_lh_zo .leaf .leaf)
          (.node 1317 f_glms_persp_decomp_lh_zo .leaf .leaf)))
        (.node 1323 f_glms_persp_decomp_near_lh_zo
         (.node 1321 f_glms_persp_decomp_z_lh_zo
          (.node 1320 f_glms_persp_decomp_y_lh_zo
           (.node 1319 f_glms_persp_decomp_x_lh_zo .leaf .leaf)
           .leaf)
          (.node 1322 f_glms_persp_decomp_far_lh_zo .leaf .leaf))
         (.node 1325 f_glms_persp_aspect_lh_zo
          (.node 1324 f_glms_persp_fovy_lh_zo .leaf .leaf)
          (.node 1326 f_glms_persp_sizes_lh_zo .leaf .leaf))))
       (.node 1336 f_glms_perspective_default_lh_no
        (.node 1332 f_glms_ortho_default_s_lh_no
         (.node 1330 f_glms_ortho_aabb_pz_lh_no
          (.node 1329 f_glms_ortho_aabb_p_lh_no
           (.node 1328 f_glms_ortho_aabb_lh_no .leaf .leaf)
           .leaf)
          (.node 1331 f_glms_ortho_default_lh_no .leaf .leaf))
         (.node 1334 f_glms_perspective_lh_no
          (.node 1333 f_glms_frustum_lh_no .leaf .leaf)
          (.node 1335 f_glms_persp_move_far_lh_no .leaf .leaf)))
        (.node 1340 f_glms_persp_decomp_x_lh_no
         (.node 1338 f_glms_persp_decomp_lh_no
          (.node 1337 f_glms_perspective_resize_lh_no .leaf .leaf)
          (.node 1339 f_glms_persp_decompv_lh_no .leaf .leaf))
         (.node 1342 f_glms_persp_decomp_z_lh_no
          (.node 1341 f_glms_persp_decomp_y_lh_no .leaf .leaf)
          (.node 1343 f_glms_persp_decomp_far_lh_no .leaf .leaf))))))
     (.node 1379 f_glms_perspective_resize_rh_no
      (.node 1362 f_glms_persp_decomp_y_rh_zo
       (.node 1353 f_glms_ortho_default_s_rh_zo
        (.node 1349 f_glms_ortho_aabb_rh_zo
         (.node 1347 f_glms_persp_sizes_lh_no
          (.node 1346 f_glms_persp_aspect_lh_no
           (.node 1345 f_glms_persp_fovy_lh_no .leaf .leaf)
           .leaf)
          (.node 1348 f_glms_ortho_rh_zo .leaf .leaf))
         (.node 1351 f_glms_ortho_aabb_pz_rh_zo
          (.node 1350 f_glms_ortho_aabb_p_rh_zo .leaf .leaf)
          (.node 1352 f_glms_ortho_default_rh_zo .leaf .leaf)))
        (.node 1358 f_glms_perspective_resize_rh_zo
         (.node 1356 f_glms_persp_move_far_rh_zo
          (.node 1355 f_glms_perspective_rh_zo
           (.node 1354 f_glms_frustum_rh_zo .leaf .leaf)
           .leaf)
          (.node 1357 f_glms_perspective_default_rh_zo .leaf .leaf))
         (.node 1360 f_glms_persp_decompv_rh_zo
          (.node 1359 f_glms_persp_decomp_rh_zo .leaf .leaf)
          (.node 1361 f_glms_persp_decomp_x_rh_zo .leaf .leaf))))
       (.node 1371 f_glms_ortho_aabb_p_rh_no
        (.node 1367 f_glms_persp_aspect_rh_zo
         (.node 1365 f_glms_persp_decomp_near_rh_zo
          (.node 1364 f_glms_persp_decomp_far_rh_zo
           (.node 1363 f_glms_persp_decomp_z_rh_zo .leaf .leaf)
           .leaf)
          (.node 1366 f_glms_persp_fovy_rh_zo .leaf .leaf))
         (.node 1369 f_glms_ortho_rh_no
          (.node 1368 f_glms_persp_sizes_rh_zo .leaf .leaf)
          (.node 1370 f_glms_ortho_aabb_rh_no .leaf .leaf)))
        (.node 1375 f_glms_frustum_rh_no
         (.node 1373 f_glms_ortho_default_rh_no
          (.node 1372 f_glms_ortho_aabb_pz_rh_no .leaf .leaf)
          (.node 1374 f_glms_ortho_default_s_rh_no .leaf .leaf))
         (.node 1377 f_glms_persp_move_far_rh_no
          (.node 1376 f_glms_perspective_rh_no .leaf .leaf)
          (.node 1378 f_glms_perspective_default_rh_no .leaf .leaf)))))
      (.node 1397 f_glms_look_rh_zo
       (.node 1388 f_glms_persp_aspect_rh_no
        (.node 1384 f_glms_persp_decomp_z_rh_no
         (.node 1382 f_glms_persp_decomp_x_rh_no
          (.node 1381 f_glms_persp_decompv_rh_no
           (.node 1380 f_glms_persp_decomp_rh_no .leaf .leaf)
           .leaf)
          (.node 1383 f_glms_persp_decomp_y_rh_no .leaf .leaf))
         (.node 1386 f_glms_persp_decomp_near_rh_no
          (.node 1385 f_glms_persp_decomp_far_rh_no .leaf .leaf)
          (.node 1387 f_glms_persp_fovy_rh_no .leaf .leaf)))
        (.node 1393 f_glms_lookat_lh_no
         (.node 1391 f_glms_look_lh_zo
          (.node 1390 f_glms_lookat_lh_zo
           (.node 1389 f_glms_persp_sizes_rh_no .leaf .leaf)
           .leaf)
          (.node 1392 f_glms_look_anyup_lh_zo .leaf .leaf))
         (.node 1395 f_glms_look_anyup_lh_no
          (.node 1394 f_glms_look_lh_no .leaf .leaf)
          (.node 1396 f_glms_lookat_rh_zo .leaf .leaf))))
       (.node 1406 f_glms_ortho_aabb_pz
        (.node 1402 f_glms_frustum
         (.node 1400 f_glms_look_rh_no
          (.node 1399 f_glms_lookat_rh_no
           (.node 1398 f_glms_look_anyup_rh_zo .leaf .leaf)
           .leaf)
          (.node 1401 f_glms_look_anyup_rh_no .leaf .leaf))
         (.node 1404 f_glms_ortho_aabb
          (.node 1403 f_glms_ortho .leaf .leaf)
          (.node 1405 f_glms_ortho_aabb_p .leaf .leaf)))
        (.node 1410 f_glms_persp_move_far
         (.node 1408 f_glms_ortho_default_s
          (.node 1407 f_glms_ortho_default .leaf .leaf)
          (.node 1409 f_glms_perspective .leaf .leaf))
         (.node 1412 f_glms_perspective_resize
          (.node 1411 f_glms_perspective_default .leaf .leaf)
          (.node 1413 f_glms_lookat .leaf .leaf))))))))
   (.node 1556 f_glmc_spin
    (.node 1485 f_glms_pickmatrix
     (.node 1450 f_glms_quat_nlerp
      (.node 1432 f_glms_quat_norm
       (.node 1423 f_glms_persp_fovy
        (.node 1419 f_glms_persp_decomp_y
         (.node 1417 f_glms_persp_decompv
          (.node 1416 f_glms_persp_decomp
           (.node 1415 f_glms_look_anyup .leaf .leaf)
           .leaf)
          (.node 1418 f_glms_persp_decomp_x .leaf .leaf))
         (.node 1421 f_glms_persp_decomp_far
          (.node 1420 f_glms_persp_decomp_z .leaf .leaf)
          (.node 1422 f_glms_persp_decomp_near .leaf .leaf)))
        (.node 1428 f_glms_quat_init
         (.node 1426 f_glms_quat_identity
          (.node 1425 f_glms_persp_sizes
           (.node 1424 f_glms_persp_aspect .leaf .leaf)
           .leaf)
          (.node 1427 f_glms_quat_identity_array .leaf .leaf))
         (.node 1430 f_glms_quat
          (.node 1429 f_glms_quatv .leaf .leaf)
          (.node 1431 f_glms_quat_from_vecs .leaf .leaf))))
       (.node 1441 f_glms_quat_angle
        (.node 1437 f_glms_quat_add
         (.node 1435 f_glms_quat_conjugate
          (.node 1434 f_glms_quat_dot
           (.node 1433 f_glms_quat_normalize .leaf .leaf)
           .leaf)
          (.node 1436 f_glms_quat_inv .leaf .leaf))
         (.node 1439 f_glms_quat_imagn
          (.node 1438 f_glms_quat_sub .leaf .leaf)
          (.node 1440 f_glms_quat_imaglen .leaf .leaf)))
        (.node 1446 f_glms_quat_mat3
         (.node 1444 f_glms_quat_mat4
          (.node 1443 f_glms_quat_mul
           (.node 1442 f_glms_quat_axis .leaf .leaf)
           .leaf)
          (.node 1445 f_glms_quat_mat4t .leaf .leaf))
         (.node 1448 f_glms_quat_lerp
          (.node 1447 f_glms_quat_mat3t .leaf .leaf)
          (.node 1449 f_glms_quat_lerpc .leaf .leaf)))))
      (.node 1468 f_glms_euler_by_order
       (.node 1459 f_glms_quat_rotate_atm
        (.node 1455 f_glms_quat_forp
         (.node 1453 f_glms_quat_look
          (.node 1452 f_glms_quat_slerp_longest
           (.node 1451 f_glms_quat_slerp .leaf .leaf)
           .leaf)
          (.node 1454 f_glms_quat_for .leaf .leaf))
         (.node 1457 f_glms_quat_rotate
          (.node 1456 f_glms_quat_rotatev .leaf .leaf)
          (.node 1458 f_glms_quat_rotate_at .leaf .leaf)))
        (.node 1464 f_glms_euler_yxz
         (.node 1462 f_glms_euler_xyz
          (.node 1461 f_glms_euler_angles
           (.node 1460 f_glms_quat_make .leaf .leaf)
           .leaf)
          (.node 1463 f_glms_euler_xzy .leaf .leaf))
         (.node 1466 f_glms_euler_zxy
          (.node 1465 f_glms_euler_yzx .leaf .leaf)
          (.node 1467 f_glms_euler_zyx .leaf .leaf))))
       (.node 1477 f_glms_project_z_zo
        (.node 1473 f_glms_euler_zxy_quat
         (.node 1471 f_glms_euler_yxz_quat
          (.node 1470 f_glms_euler_xzy_quat
           (.node 1469 f_glms_euler_xyz_quat .leaf .leaf)
           .leaf)
          (.node 1472 f_glms_euler_yzx_quat .leaf .leaf))
         (.node 1475 f_glms_unprojecti_zo
          (.node 1474 f_glms_euler_zyx_quat .leaf .leaf)
          (.node 1476 f_glms_project_zo .leaf .leaf)))
        (.node 1481 f_glms_unprojecti
         (.node 1479 f_glms_project_no
          (.node 1478 f_glms_unprojecti_no .leaf .leaf)
          (.node 1480 f_glms_project_z_no .leaf .leaf))
         (.node 1483 f_glms_project
          (.node 1482 f_glms_unproject .leaf .leaf)
          (.node 1484 f_glms_project_z .leaf .leaf))))))
     (.node 1521 f_glmc_vec4_mix
      (.node 1503 f_glms_ray_sphere
       (.node 1494 f_glms_translate2d_y
        (.node 1490 f_glms_sphere_point
         (.node 1488 f_glms_sphere_merge
          (.node 1487 f_glms_sphere_transform
           (.node 1486 f_glms_sphere_radii .leaf .leaf)
           .leaf)
          (.node 1489 f_glms_sphere_sphere .leaf .leaf))
         (.node 1492 f_glms_translate2d
          (.node 1491 f_glms_smc .leaf .leaf)
          (.node 1493 f_glms_translate2d_x .leaf .leaf)))
        (.node 1499 f_glms_rotate2d_make
         (.node 1497 f_glms_scale2d
          (.node 1496 f_glms_scale2d_make
           (.node 1495 f_glms_translate2d_make .leaf .leaf)
           .leaf)
          (.node 1498 f_glms_scale2d_uni .leaf .leaf))
         (.node 1501 f_glms_rotate2d_to
          (.node 1500 f_glms_rotate2d .leaf .leaf)
          (.node 1502 f_glms_ray_triangle .leaf .leaf))))
       (.node 1512 f_glms_aabb2d_sizev
        (.node 1508 f_glms_aabb2d_crop_until
         (.node 1506 f_glms_aabb2d_merge
          (.node 1505 f_glms_aabb2d_transform
           (.node 1504 f_glms_ray_at .leaf .leaf)
           .leaf)
          (.node 1507 f_glms_aabb2d_crop .leaf .leaf))
         (.node 1510 f_glms_aabb2d_isvalid
          (.node 1509 f_glms_aabb2d_invalidate .leaf .leaf)
          (.node 1511 f_glms_aabb2d_diag .leaf .leaf)))
        (.node 1517 f_glms_aabb2d_point
         (.node 1515 f_glms_aabb2d_aabb
          (.node 1514 f_glms_aabb2d_center
           (.node 1513 f_glms_aabb2d_radius .leaf .leaf)
           .leaf)
          (.node 1516 f_glms_aabb2d_circle .leaf .leaf))
         (.node 1519 f_glmc_vec3_mix
          (.node 1518 f_glms_aabb2d_contains .leaf .leaf)
          (.node 1520 f_glmc_vec3_mixc .leaf .leaf)))))
      (.node 1539 f_glmc_translate_make
       (.node 1530 f_glmc_aabb2d_isvalid
        (.node 1526 f_glmc_aabb2d_merge
         (.node 1524 f_glmc_aabb2d_copy
          (.node 1523 f_glmc_aabb2d_zero
           (.node 1522 f_glmc_vec4_mixc .leaf .leaf)
           .leaf)
          (.node 1525 f_glmc_aabb2d_transform .leaf .leaf))
         (.node 1528 f_glmc_aabb2d_crop_until
          (.node 1527 f_glmc_aabb2d_crop .leaf .leaf)
          (.node 1529 f_glmc_aabb2d_invalidate .leaf .leaf)))
        (.node 1535 f_glmc_aabb2d_aabb
         (.node 1533 f_glmc_aabb2d_radius
          (.node 1532 f_glmc_aabb2d_sizev
           (.node 1531 f_glmc_aabb2d_diag .leaf .leaf)
           .leaf)
          (.node 1534 f_glmc_aabb2d_center .leaf .leaf))
         (.node 1537 f_glmc_aabb2d_contains
          (.node 1536 f_glmc_aabb2d_point .leaf .leaf)
          (.node 1538 f_glmc_aabb2d_circle .leaf .leaf))))
       (.node 1548 f_glmc_scale_uni
        (.node 1544 f_glmc_translate_z
         (.node 1542 f_glmc_translate_x
          (.node 1541 f_glmc_translate
           (.node 1540 f_glmc_translate_to .leaf .leaf)
           .leaf)
          (.node 1543 f_glmc_translate_y .leaf .leaf))
         (.node 1546 f_glmc_scale_to
          (.node 1545 f_glmc_scale_make .leaf .leaf)
          (.node 1547 f_glmc_scale .leaf .leaf)))
        (.node 1552 f_glmc_rotate_make
         (.node 1550 f_glmc_rotate_y
          (.node 1549 f_glmc_rotate_x .leaf .leaf)
          (.node 1551 f_glmc_rotate_z .leaf .leaf))
         (.node 1554 f_glmc_rotate_at
          (.node 1553 f_glmc_rotate .leaf .leaf)
          (.node 1555 f_glmc_rotate_atm .leaf .leaf)))))))
    (.node 1627 f_glmc_persp_sizes
     (.node 1592 f_glmc_aabb_crop
      (.node 1574 f_glmc_inv_tr
       (.node 1565 f_glmc_rotated_x
        (.node 1561 f_glmc_translated_to
         (.node 1559 f_glmc_decompose_rs
          (.node 1558 f_glmc_uniscaled
           (.node 1557 f_glmc_decompose_scalev .leaf .leaf)
           .leaf)
          (.node 1560 f_glmc_translated .leaf .leaf))
         (.node 1563 f_glmc_translated_y
          (.node 1562 f_glmc_translated_x .leaf .leaf)
          (.node 1564 f_glmc_translated_z .leaf .leaf)))
        (.node 1570 f_glmc_spinned
         (.node 1568 f_glmc_rotated
          (.node 1567 f_glmc_rotated_z
           (.node 1566 f_glmc_rotated_y .leaf .leaf)
           .leaf)
          (.node 1569 f_glmc_rotated_at .leaf .leaf))
         (.node 1572 f_glmc_mul
          (.node 1571 f_glmc_decompose .leaf .leaf)
          (.node 1573 f_glmc_mul_rot .leaf .leaf))))
       (.node 1583 f_glmc_scale2d_uni
        (.node 1579 f_glmc_translate2d_y
         (.node 1577 f_glmc_translate2d
          (.node 1576 f_glmc_translate2d_to
           (.node 1575 f_glmc_translate2d_make .leaf .leaf)
           .leaf)
          (.node 1578 f_glmc_translate2d_x .leaf .leaf))
         (.node 1581 f_glmc_scale2d_make
          (.node 1580 f_glmc_scale2d_to .leaf .leaf)
          (.node 1582 f_glmc_scale2d .leaf .leaf)))
        (.node 1588 f_glmc_hermite
         (.node 1586 f_glmc_rotate2d_to
          (.node 1585 f_glmc_rotate2d
           (.node 1584 f_glmc_rotate2d_make .leaf .leaf)
           .leaf)
          (.node 1587 f_glmc_bezier .leaf .leaf))
         (.node 1590 f_glmc_aabb_transform
          (.node 1589 f_glmc_decasteljau .leaf .leaf)
          (.node 1591 f_glmc_aabb_merge .leaf .leaf)))))
      (.node 1610 f_glmc_ortho_default_s
       (.node 1601 f_glmc_aabb_point
        (.node 1597 f_glmc_aabb_size
         (.node 1595 f_glmc_aabb_invalidate
          (.node 1594 f_glmc_aabb_frustum
           (.node 1593 f_glmc_aabb_crop_until .leaf .leaf)
           .leaf)
          (.node 1596 f_glmc_aabb_isvalid .leaf .leaf))
         (.node 1599 f_glmc_aabb_center
          (.node 1598 f_glmc_aabb_radius .leaf .leaf)
          (.node 1600 f_glmc_aabb_aabb .leaf .leaf)))
        (.node 1606 f_glmc_ortho_aabb
         (.node 1604 f_glmc_frustum
          (.node 1603 f_glmc_aabb_sphere
           (.node 1602 f_glmc_aabb_contains .leaf .leaf)
           .leaf)
          (.node 1605 f_glmc_ortho .leaf .leaf))
         (.node 1608 f_glmc_ortho_aabb_pz
          (.node 1607 f_glmc_ortho_aabb_p .leaf .leaf)
          (.node 1609 f_glmc_ortho_default .leaf .leaf))))
       (.node 1619 f_glmc_persp_decompv
        (.node 1615 f_glmc_lookat
         (.node 1613 f_glmc_perspective_default
          (.node 1612 f_glmc_persp_move_far
           (.node 1611 f_glmc_perspective .leaf .leaf)
           .leaf)
          (.node 1614 f_glmc_perspective_resize .leaf .leaf))
         (.node 1617 f_glmc_look_anyup
          (.node 1616 f_glmc_look .leaf .leaf)
          (.node 1618 f_glmc_persp_decomp .leaf .leaf)))
        (.node 1623 f_glmc_persp_decomp_far
         (.node 1621 f_glmc_persp_decomp_y
          (.node 1620 f_glmc_persp_decomp_x .leaf .leaf)
          (.node 1622 f_glmc_persp_decomp_z .leaf .leaf))
         (.node 1625 f_glmc_persp_fovy
          (.node 1624 f_glmc_persp_decomp_near .leaf .leaf)
          (.node 1626 f_glmc_persp_aspect .leaf .leaf))))))
     (.node 1662 f_glmc_euler_xyz
      (.node 1645 f_glmc_ease_exp_in
       (.node 1636 f_glmc_ease_cubic_in
        (.node 1632 f_glmc_ease_sine_inout
         (.node 1630 f_glmc_ease_sine_in
          (.node 1629 f_glmc_ease_linear
           (.node 1628 f_glmc_smc .leaf .leaf)
           .leaf)
          (.node 1631 f_glmc_ease_sine_out .leaf .leaf))
         (.node 1634 f_glmc_ease_quad_out
          (.node 1633 f_glmc_ease_quad_in .leaf .leaf)
          (.node 1635 f_glmc_ease_quad_inout .leaf .leaf)))
        (.node 1641 f_glmc_ease_quart_inout
         (.node 1639 f_glmc_ease_quart_in
          (.node 1638 f_glmc_ease_cubic_inout
           (.node 1637 f_glmc_ease_cubic_out .leaf .leaf)
           .leaf)
          (.node 1640 f_glmc_ease_quart_out .leaf .leaf))
         (.node 1643 f_glmc_ease_quint_out
          (.node 1642 f_glmc_ease_quint_in .leaf .leaf)
          (.node 1644 f_glmc_ease_quint_inout .leaf .leaf))))
       (.node 1654 f_glmc_ease_elast_in
        (.node 1650 f_glmc_ease_circ_inout
         (.node 1648 f_glmc_ease_circ_in
          (.node 1647 f_glmc_ease_exp_inout
           (.node 1646 f_glmc_ease_exp_out .leaf .leaf)
           .leaf)
          (.node 1649 f_glmc_ease_circ_out .leaf .leaf))
         (.node 1652 f_glmc_ease_back_out
          (.node 1651 f_glmc_ease_back_in .leaf .leaf)
          (.node 1653 f_glmc_ease_back_inout .leaf .leaf)))
        (.node 1658 f_glmc_ease_bounce_in
         (.node 1656 f_glmc_ease_elast_inout
          (.node 1655 f_glmc_ease_elast_out .leaf .leaf)
          (.node 1657 f_glmc_ease_bounce_out .leaf .leaf))
         (.node 1660 f_glmc_euler_angles
          (.node 1659 f_glmc_ease_bounce_inout .leaf .leaf)
          (.node 1661 f_glmc_euler .leaf .leaf)))))
      (.node 1680 f_glmc_ivec2
       (.node 1671 f_glmc_euler_yxz_quat
        (.node 1667 f_glmc_euler_yxz
         (.node 1665 f_glmc_euler_xzy
          (.node 1664 f_glmc_euler_zxy
           (.node 1663 f_glmc_euler_zyx .leaf .leaf)
           .leaf)
          (.node 1666 f_glmc_euler_yzx .leaf .leaf))
         (.node 1669 f_glmc_euler_xyz_quat
          (.node 1668 f_glmc_euler_by_order .leaf .leaf)
          (.node 1670 f_glmc_euler_xzy_quat .leaf .leaf)))
        (.node 1676 f_glmc_frustum_corners
         (.node 1674 f_glmc_euler_zyx_quat
          (.node 1673 f_glmc_euler_zxy_quat
           (.node 1672 f_glmc_euler_yzx_quat .leaf .leaf)
           .leaf)
          (.node 1675 f_glmc_frustum_planes .leaf .leaf))
         (.node 1678 f_glmc_frustum_box
          (.node 1677 f_glmc_frustum_center .leaf .leaf)
          (.node 1679 f_glmc_frustum_corners_at .leaf .leaf))))
       (.node 1689 f_glmc_ivec2_subs
        (.node 1685 f_glmc_ivec2_cross
         (.node 1683 f_glmc_ivec2_one
          (.node 1682 f_glmc_ivec2_zero
           (.node 1681 f_glmc_ivec2_copy .leaf .leaf)
           .leaf)
          (.node 1684 f_glmc_ivec2_dot .leaf .leaf))
         (.node 1687 f_glmc_ivec2_adds
          (.node 1686 f_glmc_ivec2_add .leaf .leaf)
          (.node 1688 f_glmc_ivec2_sub .leaf .leaf)))
        (.node 1693 f_glmc_ivec2_divs
         (.node 1691 f_glmc_ivec2_scale
          (.node 1690 f_glmc_ivec2_mul .leaf .leaf)
          (.node 1692 f_glmc_ivec2_div .leaf .leaf))
         (.node 1695 f_glmc_ivec2_addadd
          (.node 1694 f_glmc_ivec2_mod .leaf .leaf)
          (.node 1696 f_glmc_ivec2_addadds .leaf .leaf)))))))))
  (.node 1980 f_glmc_vec2_addsub
   (.node 1839 f_glmc_mat3_make
    (.node 1768 f_glmc_ivec4_subs
     (.node 1733 f_glmc_ivec3_div
      (.node 1715 f_glmc_ivec2_eqv
       (.node 1706 f_glmc_ivec2_addsubs
        (.node 1702 f_glmc_ivec2_minadd
         (.node 1700 f_glmc_ivec2_muladds
          (.node 1699 f_glmc_ivec2_muladd
           (.node 1698 f_glmc_ivec2_subadds .leaf .leaf)
           .leaf)
          (.node 1701 f_glmc_ivec2_maxadd .leaf .leaf))
         (.node 1704 f_glmc_ivec2_subsubs
          (.node 1703 f_glmc_ivec2_subsub .leaf .leaf)
          (.node 1705 f_glmc_ivec2_addsub .leaf .leaf)))
        (.node 1711 f_glmc_ivec2_distance2
         (.node 1709 f_glmc_ivec2_maxsub
          (.node 1708 f_glmc_ivec2_mulsubs
           (.node 1707 f_glmc_ivec2_mulsub .leaf .leaf)
           .leaf)
          (.node 1710 f_glmc_ivec2_minsub .leaf .leaf))
         (.node 1713 f_glmc_ivec2_fill
          (.node 1712 f_glmc_ivec2_distance .leaf .leaf)
          (.node 1714 f_glmc_ivec2_eq .leaf .leaf))))
       (.node 1724 f_glmc_ivec3_dot
        (.node 1720 f_glmc_ivec3
         (.node 1718 f_glmc_ivec2_clamp
          (.node 1717 f_glmc_ivec2_minv
           (.node 1716 f_glmc_ivec2_maxv .leaf .leaf)
           .leaf)
          (.node 1719 f_glmc_ivec2_abs .leaf .leaf))
         (.node 1722 f_glmc_ivec3_zero
          (.node 1721 f_glmc_ivec3_copy .leaf .leaf)
          (.node 1723 f_glmc_ivec3_one .leaf .leaf)))
        (.node 1729 f_glmc_ivec3_sub
         (.node 1727 f_glmc_ivec3_add
          (.node 1726 f_glmc_ivec3_norm
           (.node 1725 f_glmc_ivec3_norm2 .leaf .leaf)
           .leaf)
          (.node 1728 f_glmc_ivec3_adds .leaf .leaf))
         (.node 1731 f_glmc_ivec3_mul
          (.node 1730 f_glmc_ivec3_subs .leaf .leaf)
          (.node 1732 f_glmc_ivec3_scale .leaf .leaf)))))
      (.node 1751 f_glmc_ivec3_minsub
       (.node 1742 f_glmc_ivec3_maxadd
        (.node 1738 f_glmc_ivec3_subadd
         (.node 1736 f_glmc_ivec3_addadd
          (.node 1735 f_glmc_ivec3_mod
           (.node 1734 f_glmc_ivec3_divs .leaf .leaf)
           .leaf)
          (.node 1737 f_glmc_ivec3_addadds .leaf .leaf))
         (.node 1740 f_glmc_ivec3_muladd
          (.node 1739 f_glmc_ivec3_subadds .leaf .leaf)
          (.node 1741 f_glmc_ivec3_muladds .leaf .leaf)))
        (.node 1747 f_glmc_ivec3_addsubs
         (.node 1745 f_glmc_ivec3_subsubs
          (.node 1744 f_glmc_ivec3_subsub
           (.node 1743 f_glmc_ivec3_minadd .leaf .leaf)
           .leaf)
          (.node 1746 f_glmc_ivec3_addsub .leaf .leaf))
         (.node 1749 f_glmc_ivec3_mulsubs
          (.node 1748 f_glmc_ivec3_mulsub .leaf .leaf)
          (.node 1750 f_glmc_ivec3_maxsub .leaf .leaf))))
       (.node 1760 f_glmc_ivec3_abs
        (.node 1756 f_glmc_ivec3_eqv
         (.node 1754 f_glmc_ivec3_fill
          (.node 1753 f_glmc_ivec3_distance
           (.node 1752 f_glmc_ivec3_distance2 .leaf .leaf)
           .leaf)
          (.node 1755 f_glmc_ivec3_eq .leaf .leaf))
         (.node 1758 f_glmc_ivec3_minv
          (.node 1757 f_glmc_ivec3_maxv .leaf .leaf)
          (.node 1759 f_glmc_ivec3_clamp .leaf .leaf)))
        (.node 1764 f_glmc_ivec4_one
         (.node 1762 f_glmc_ivec4_copy
          (.node 1761 f_glmc_ivec4 .leaf .leaf)
          (.node 1763 f_glmc_ivec4_zero .leaf .leaf))
         (.node 1766 f_glmc_ivec4_adds
          (.node 1765 f_glmc_ivec4_add .leaf .leaf)
          (.node 1767 f_glmc_ivec4_sub .leaf .leaf))))))
     (.node 1804 f_glmc_mat2_swap_col
      (.node 1786 f_glmc_ivec4_minsub
       (.node 1777 f_glmc_ivec4_maxadd
        (.node 1773 f_glmc_ivec4_subadd
         (.node 1771 f_glmc_ivec4_addadd
          (.node 1770 f_glmc_ivec4_scale
           (.node 1769 f_glmc_ivec4_mul .leaf .leaf)
           .leaf)
          (.node 1772 f_glmc_ivec4_addadds .leaf .leaf))
         (.node 1775 f_glmc_ivec4_muladd
          (.node 1774 f_glmc_ivec4_subadds .leaf .leaf)
          (.node 1776 f_glmc_ivec4_muladds .leaf .leaf)))
        (.node 1782 f_glmc_ivec4_addsubs
         (.node 1780 f_glmc_ivec4_subsubs
          (.node 1779 f_glmc_ivec4_subsub
           (.node 1778 f_glmc_ivec4_minadd .leaf .leaf)
           .leaf)
          (.node 1781 f_glmc_ivec4_addsub .leaf .leaf))
         (.node 1784 f_glmc_ivec4_mulsubs
          (.node 1783 f_glmc_ivec4_mulsub .leaf .leaf)
          (.node 1785 f_glmc_ivec4_maxsub .leaf .leaf))))
       (.node 1795 f_glmc_mat2_identity
        (.node 1791 f_glmc_ivec4_clamp
         (.node 1789 f_glmc_ivec4_maxv
          (.node 1788 f_glmc_ivec4_distance
           (.node 1787 f_glmc_ivec4_distance2 .leaf .leaf)
           .leaf)
          (.node 1790 f_glmc_ivec4_minv .leaf .leaf))
         (.node 1793 f_glmc_mat2_make
          (.node 1792 f_glmc_ivec4_abs .leaf .leaf)
          (.node 1794 f_glmc_mat2_copy .leaf .leaf)))
        (.node 1800 f_glmc_mat2_transpose_to
         (.node 1798 f_glmc_mat2_mul
          (.node 1797 f_glmc_mat2_zero
           (.node 1796 f_glmc_mat2_identity_array .leaf .leaf)
           .leaf)
          (.node 1799 f_glmc_mat2_mulv .leaf .leaf))
         (.node 1802 f_glmc_mat2_scale
          (.node 1801 f_glmc_mat2_transpose .leaf .leaf)
          (.node 1803 f_glmc_mat2_inv .leaf .leaf)))))
      (.node 1822 f_glmc_mat2x4_scale
       (.node 1813 f_glmc_mat2x3_mulv
        (.node 1809 f_glmc_mat2x3_copy
         (.node 1807 f_glmc_mat2_trace
          (.node 1806 f_glmc_mat2_det
           (.node 1805 f_glmc_mat2_swap_row .leaf .leaf)
           .leaf)
          (.node 1808 f_glmc_mat2_rmc .leaf .leaf))
         (.node 1811 f_glmc_mat2x3_make
          (.node 1810 f_glmc_mat2x3_zero .leaf .leaf)
          (.node 1812 f_glmc_mat2x3_mul .leaf .leaf)))
        (.node 1818 f_glmc_mat2x4_make
         (.node 1816 f_glmc_mat2x4_copy
          (.node 1815 f_glmc_mat2x3_scale
           (.node 1814 f_glmc_mat2x3_transpose .leaf .leaf)
           .leaf)
          (.node 1817 f_glmc_mat2x4_zero .leaf .leaf))
         (.node 1820 f_glmc_mat2x4_mulv
          (.node 1819 f_glmc_mat2x4_mul .leaf .leaf)
          (.node 1821 f_glmc_mat2x4_transpose .leaf .leaf))))
       (.node 1831 f_glmc_mat3_trace
        (.node 1827 f_glmc_mat3_mul
         (.node 1825 f_glmc_mat3_zero
          (.node 1824 f_glmc_mat3_identity
           (.node 1823 f_glmc_mat3_copy .leaf .leaf)
           .leaf)
          (.node 1826 f_glmc_mat3_identity_array .leaf .leaf))
         (.node 1829 f_glmc_mat3_transpose
          (.node 1828 f_glmc_mat3_transpose_to .leaf .leaf)
          (.node 1830 f_glmc_mat3_mulv .leaf .leaf)))
        (.node 1835 f_glmc_mat3_inv
         (.node 1833 f_glmc_mat3_scale
          (.node 1832 f_glmc_mat3_quat .leaf .leaf)
          (.node 1834 f_glmc_mat3_det .leaf .leaf))
         (.node 1837 f_glmc_mat3_swap_row
          (.node 1836 f_glmc_mat3_swap_col .leaf .leaf)
          (.node 1838 f_glmc_mat3_rmc .leaf .leaf)))))))
    (.node 1910 f_glmc_quatv
     (.node 1875 f_glmc_mat4_inv
      (.node 1857 f_glmc_mat4_identity
       (.node 1848 f_glmc_mat3x4_copy
        (.node 1844 f_glmc_mat3x2_mul
         (.node 1842 f_glmc_mat3x2_zero
          (.node 1841 f_glmc_mat3x2_copy
           (.node 1840 f_glmc_mat3_textrans .leaf .leaf)
           .leaf)
          (.node 1843 f_glmc_mat3x2_make .leaf .leaf))
         (.node 1846 f_glmc_mat3x2_transpose
          (.node 1845 f_glmc_mat3x2_mulv .leaf .leaf)
          (.node 1847 f_glmc_mat3x2_scale .leaf .leaf)))
        (.node 1853 f_glmc_mat3x4_transpose
         (.node 1851 f_glmc_mat3x4_mul
          (.node 1850 f_glmc_mat3x4_make
           (.node 1849 f_glmc_mat3x4_zero .leaf .leaf)
           .leaf)
          (.node 1852 f_glmc_mat3x4_mulv .leaf .leaf))
         (.node 1855 f_glmc_mat4_ucopy
          (.node 1854 f_glmc_mat3x4_scale .leaf .leaf)
          (.node 1856 f_glmc_mat4_copy .leaf .leaf))))
       (.node 1866 f_glmc_mat4_mulv3
        (.node 1862 f_glmc_mat4_ins3
         (.node 1860 f_glmc_mat4_pick3
          (.node 1859 f_glmc_mat4_zero
           (.node 1858 f_glmc_mat4_identity_array .leaf .leaf)
           .leaf)
          (.node 1861 f_glmc_mat4_pick3t .leaf .leaf))
         (.node 1864 f_glmc_mat4_mulN
          (.node 1863 f_glmc_mat4_mul .leaf .leaf)
          (.node 1865 f_glmc_mat4_mulv .leaf .leaf)))
        (.node 1871 f_glmc_mat4_transpose
         (.node 1869 f_glmc_mat4_quat
          (.node 1868 f_glmc_mat4_trace3
           (.node 1867 f_glmc_mat4_trace .leaf .leaf)
           .leaf)
          (.node 1870 f_glmc_mat4_transpose_to .leaf .leaf))
         (.node 1873 f_glmc_mat4_scale
          (.node 1872 f_glmc_mat4_scale_p .leaf .leaf)
          (.node 1874 f_glmc_mat4_det .leaf .leaf)))))
      (.node 1893 f_glmc_mat4x3_mul
       (.node 1884 f_glmc_mat4x2_zero
        (.node 1880 f_glmc_mat4_rmc
         (.node 1878 f_glmc_mat4_swap_col
          (.node 1877 f_glmc_mat4_inv_fast
           (.node 1876 f_glmc_mat4_inv_precise .leaf .leaf)
           .leaf)
          (.node 1879 f_glmc_mat4_swap_row .leaf .leaf))
         (.node 1882 f_glmc_mat4_textrans
          (.node 1881 f_glmc_mat4_make .leaf .leaf)
          (.node 1883 f_glmc_mat4x2_copy .leaf .leaf)))
        (.node 1889 f_glmc_mat4x2_scale
         (.node 1887 f_glmc_mat4x2_mulv
          (.node 1886 f_glmc_mat4x2_mul
           (.node 1885 f_glmc_mat4x2_make .leaf .leaf)
           .leaf)
          (.node 1888 f_glmc_mat4x2_transpose .leaf .leaf))
         (.node 1891 f_glmc_mat4x3_zero
          (.node 1890 f_glmc_mat4x3_copy .leaf .leaf)
          (.node 1892 f_glmc_mat4x3_make .leaf .leaf))))
       (.node 1902 f_glmc_unproject
        (.node 1898 f_glmc_perlin_vec3
         (.node 1896 f_glmc_mat4x3_scale
          (.node 1895 f_glmc_mat4x3_transpose
           (.node 1894 f_glmc_mat4x3_mulv .leaf .leaf)
           .leaf)
          (.node 1897 f_glmc_perlin_vec4 .leaf .leaf))
         (.node 1900 f_glmc_plane_normalize
          (.node 1899 f_glmc_perlin_vec2 .leaf .leaf)
          (.node 1901 f_glmc_unprojecti .leaf .leaf)))
        (.node 1906 f_glmc_quat_identity
         (.node 1904 f_glmc_project_z
          (.node 1903 f_glmc_project .leaf .leaf)
          (.node 1905 f_glmc_pickmatrix .leaf .leaf))
         (.node 1908 f_glmc_quat_init
          (.node 1907 f_glmc_quat_identity_array .leaf .leaf)
          (.node 1909 f_glmc_quat .leaf .leaf))))))
     (.node 1945 f_glmc_ray_triangle
      (.node 1928 f_glmc_quat_mat4
       (.node 1919 f_glmc_quat_add
        (.node 1915 f_glmc_quat_normalize
         (.node 1913 f_glmc_quat_norm
          (.node 1912 f_glmc_quat_from_vecs
           (.node 1911 f_glmc_quat_copy .leaf .leaf)
           .leaf)
          (.node 1914 f_glmc_quat_normalize_to .leaf .leaf))
         (.node 1917 f_glmc_quat_conjugate
          (.node 1916 f_glmc_quat_dot .leaf .leaf)
          (.node 1918 f_glmc_quat_inv .leaf .leaf)))
        (.node 1924 f_glmc_quat_imaglen
         (.node 1922 f_glmc_quat_imag
          (.node 1921 f_glmc_quat_real
           (.node 1920 f_glmc_quat_sub .leaf .leaf)
           .leaf)
          (.node 1923 f_glmc_quat_imagn .leaf .leaf))
         (.node 1926 f_glmc_quat_axis
          (.node 1925 f_glmc_quat_angle .leaf .leaf)
          (.node 1927 f_glmc_quat_mul .leaf .leaf))))
       (.node 1937 f_glmc_quat_look
        (.node 1933 f_glmc_quat_lerpc
         (.node 1931 f_glmc_quat_mat3t
          (.node 1930 f_glmc_quat_mat3
           (.node 1929 f_glmc_quat_mat4t .leaf .leaf)
           .leaf)
          (.node 1932 f_glmc_quat_lerp .leaf .leaf))
         (.node 1935 f_glmc_quat_slerp
          (.node 1934 f_glmc_quat_nlerp .leaf .leaf)
          (.node 1936 f_glmc_quat_slerp_longest .leaf .leaf)))
        (.node 1941 f_glmc_quat_rotate
         (.node 1939 f_glmc_quat_forp
          (.node 1938 f_glmc_quat_for .leaf .leaf)
          (.node 1940 f_glmc_quat_rotatev .leaf .leaf))
         (.node 1943 f_glmc_quat_rotate_atm
          (.node 1942 f_glmc_quat_rotate_at .leaf .leaf)
          (.node 1944 f_glmc_quat_make .leaf .leaf)))))
      (.node 1963 f_glmc_vec2_norm
       (.node 1954 f_glmc_vec2_fill
        (.node 1950 f_glmc_sphere_merge
         (.node 1948 f_glmc_sphere_radii
          (.node 1947 f_glmc_ray_at
           (.node 1946 f_glmc_ray_sphere .leaf .leaf)
           .leaf)
          (.node 1949 f_glmc_sphere_transform .leaf .leaf))
         (.node 1952 f_glmc_sphere_point
          (.node 1951 f_glmc_sphere_sphere .leaf .leaf)
          (.node 1953 f_glmc_vec2 .leaf .leaf)))
        (.node 1959 f_glmc_vec2_one
         (.node 1957 f_glmc_vec2_copy
          (.node 1956 f_glmc_vec2_eqv
           (.node 1955 f_glmc_vec2_eq .leaf .leaf)
           .leaf)
          (.node 1958 f_glmc_vec2_zero .leaf .leaf))
         (.node 1961 f_glmc_vec2_cross
          (.node 1960 f_glmc_vec2_dot .leaf .leaf)
          (.node 1962 f_glmc_vec2_norm2 .leaf .leaf))))
       (.node 1972 f_glmc_vec2_divs
        (.node 1968 f_glmc_vec2_mul
         (.node 1966 f_glmc_vec2_sub
          (.node 1965 f_glmc_vec2_adds
           (.node 1964 f_glmc_vec2_add .leaf .leaf)
           .leaf)
          (.node 1967 f_glmc_vec2_subs .leaf .leaf))
         (.node 1970 f_glmc_vec2_scale_as
          (.node 1969 f_glmc_vec2_scale .leaf .leaf)
          (.node 1971 f_glmc_vec2_div .leaf .leaf)))
        (.node 1976 f_glmc_vec2_muladds
         (.node 1974 f_glmc_vec2_subadd
          (.node 1973 f_glmc_vec2_addadd .leaf .leaf)
          (.node 1975 f_glmc_vec2_muladd .leaf .leaf))
         (.node 1978 f_glmc_vec2_minadd
          (.node 1977 f_glmc_vec2_maxadd .leaf .leaf)
          (.node 1979 f_glmc_vec2_subsub .leaf .leaf))))))))
   (.node 2121 f_glmc_vec4_subsub
    (.node 2051 f_glmc_vec3_proj
     (.node 2016 f_glmc_vec3_cross
      (.node 1998 f_glmc_vec2_floor
       (.node 1989 f_glmc_vec2_rotate
        (.node 1985 f_glmc_vec2_negate_to
         (.node 1983 f_glmc_vec2_maxsub
          (.node 1982 f_glmc_vec2_mulsubs
           (.node 1981 f_glmc_vec2_mulsub .leaf .leaf)
           .leaf)
          (.node 1984 f_glmc_vec2_minsub .leaf .leaf))
         (.node 1987 f_glmc_vec2_normalize
          (.node 1986 f_glmc_vec2_negate .leaf .leaf)
          (.node 1988 f_glmc_vec2_normalize_to .leaf .leaf)))
        (.node 1994 f_glmc_vec2_minv
         (.node 1992 f_glmc_vec2_distance
          (.node 1991 f_glmc_vec2_distance2
           (.node 1990 f_glmc_vec2_center .leaf .leaf)
           .leaf)
          (.node 1993 f_glmc_vec2_maxv .leaf .leaf))
         (.node 1996 f_glmc_vec2_abs
          (.node 1995 f_glmc_vec2_clamp .leaf .leaf)
          (.node 1997 f_glmc_vec2_fract .leaf .leaf))))
       (.node 2007 f_glmc_vec2_complex_conjugate
        (.node 2003 f_glmc_vec2_swizzle
         (.node 2001 f_glmc_vec2_steps
          (.node 2000 f_glmc_vec2_step
           (.node 1999 f_glmc_vec2_mods .leaf .leaf)
           .leaf)
          (.node 2002 f_glmc_vec2_stepr .leaf .leaf))
         (.node 2005 f_glmc_vec2_complex_mul
          (.node 2004 f_glmc_vec2_lerp .leaf .leaf)
          (.node 2006 f_glmc_vec2_complex_div .leaf .leaf)))
        (.node 2012 f_glmc_vec3_copy
         (.node 2010 f_glmc_vec2_refract
          (.node 2009 f_glmc_vec2_reflect
           (.node 2008 f_glmc_vec2_make .leaf .leaf)
           .leaf)
          (.node 2011 f_glmc_vec3 .leaf .leaf))
         (.node 2014 f_glmc_vec3_one
          (.node 2013 f_glmc_vec3_zero .leaf .leaf)
          (.node 2015 f_glmc_vec3_dot .leaf .leaf)))))
      (.node 2034 f_glmc_vec3_subadd
       (.node 2025 f_glmc_vec3_adds
        (.node 2021 f_glmc_vec3_norm2
         (.node 2019 f_glmc_vec3_normalize_to
          (.node 2018 f_glmc_vec3_norm
           (.node 2017 f_glmc_vec3_crossn .leaf .leaf)
           .leaf)
          (.node 2020 f_glmc_vec3_normalize .leaf .leaf))
         (.node 2023 f_glmc_vec3_norm_inf
          (.node 2022 f_glmc_vec3_norm_one .leaf .leaf)
          (.node 2024 f_glmc_vec3_add .leaf .leaf)))
        (.node 2030 f_glmc_vec3_scale_as
         (.node 2028 f_glmc_vec3_mul
          (.node 2027 f_glmc_vec3_subs
           (.node 2026 f_glmc_vec3_sub .leaf .leaf)
           .leaf)
          (.node 2029 f_glmc_vec3_scale .leaf .leaf))
         (.node 2032 f_glmc_vec3_divs
          (.node 2031 f_glmc_vec3_div .leaf .leaf)
          (.node 2033 f_glmc_vec3_addadd .leaf .leaf))))
       (.node 2043 f_glmc_vec3_maxsub
        (.node 2039 f_glmc_vec3_subsub
         (.node 2037 f_glmc_vec3_maxadd
          (.node 2036 f_glmc_vec3_muladds
           (.node 2035 f_glmc_vec3_muladd .leaf .leaf)
           .leaf)
          (.node 2038 f_glmc_vec3_minadd .leaf .leaf))
         (.node 2041 f_glmc_vec3_mulsub
          (.node 2040 f_glmc_vec3_addsub .leaf .leaf)
          (.node 2042 f_glmc_vec3_mulsubs .leaf .leaf)))
        (.node 2047 f_glmc_vec3_angle
         (.node 2045 f_glmc_vec3_negate
          (.node 2044 f_glmc_vec3_minsub .leaf .leaf)
          (.node 2046 f_glmc_vec3_negate_to .leaf .leaf))
         (.node 2049 f_glmc_vec3_rotate_m4
          (.node 2048 f_glmc_vec3_rotate .leaf .leaf)
          (.node 2050 f_glmc_vec3_rotate_m3 .leaf .leaf))))))
     (.node 2086 f_glmc_vec3_stepr
      (.node 2069 f_glmc_vec3_fill
       (.node 2060 f_glmc_vec3_lerpc
        (.node 2056 f_glmc_vec3_minv
         (.node 2054 f_glmc_vec3_distance2
          (.node 2053 f_glmc_vec3_distance
           (.node 2052 f_glmc_vec3_center .leaf .leaf)
           .leaf)
          (.node 2055 f_glmc_vec3_maxv .leaf .leaf))
         (.node 2058 f_glmc_vec3_ortho
          (.node 2057 f_glmc_vec3_clamp .leaf .leaf)
          (.node 2059 f_glmc_vec3_lerp .leaf .leaf)))
        (.node 2065 f_glmc_vec3_smoothinterpc
         (.node 2063 f_glmc_vec3_smoothstep
          (.node 2062 f_glmc_vec3_smoothstep_uni
           (.node 2061 f_glmc_vec3_step .leaf .leaf)
           .leaf)
          (.node 2064 f_glmc_vec3_smoothinterp .leaf .leaf))
         (.node 2067 f_glmc_vec3_mulv
          (.node 2066 f_glmc_vec3_swizzle .leaf .leaf)
          (.node 2068 f_glmc_vec3_broadcast .leaf .leaf))))
       (.node 2078 f_glmc_vec3_isinf
        (.node 2074 f_glmc_vec3_eqv_eps
         (.node 2072 f_glmc_vec3_eq_all
          (.node 2071 f_glmc_vec3_eq_eps
           (.node 2070 f_glmc_vec3_eq .leaf .leaf)
           .leaf)
          (.node 2073 f_glmc_vec3_eqv .leaf .leaf))
         (.node 2076 f_glmc_vec3_min
          (.node 2075 f_glmc_vec3_max .leaf .leaf)
          (.node 2077 f_glmc_vec3_isnan .leaf .leaf)))
        (.node 2082 f_glmc_vec3_fract
         (.node 2080 f_glmc_vec3_sign
          (.node 2079 f_glmc_vec3_isvalid .leaf .leaf)
          (.node 2081 f_glmc_vec3_abs .leaf .leaf))
         (.node 2084 f_glmc_vec3_mods
          (.node 2083 f_glmc_vec3_floor .leaf .leaf)
          (.node 2085 f_glmc_vec3_steps .leaf .leaf)))))
      (.node 2104 f_glmc_vec4_norm_one
       (.node 2095 f_glmc_vec4_one
        (.node 2091 f_glmc_vec3_reflect
         (.node 2089 f_glmc_vec3_make
          (.node 2088 f_glmc_vec3_sqrt
           (.node 2087 f_glmc_vec3_hadd .leaf .leaf)
           .leaf)
          (.node 2090 f_glmc_vec3_faceforward .leaf .leaf))
         (.node 2093 f_glmc_vec4
          (.node 2092 f_glmc_vec3_refract .leaf .leaf)
          (.node 2094 f_glmc_vec4_zero .leaf .leaf)))
        (.node 2100 f_glmc_vec4_norm
         (.node 2098 f_glmc_vec4_ucopy
          (.node 2097 f_glmc_vec4_copy
           (.node 2096 f_glmc_vec4_copy3 .leaf .leaf)
           .leaf)
          (.node 2099 f_glmc_vec4_dot .leaf .leaf))
         (.node 2102 f_glmc_vec4_normalize
          (.node 2101 f_glmc_vec4_normalize_to .leaf .leaf)
          (.node 2103 f_glmc_vec4_norm2 .leaf .leaf))))
       (.node 2113 f_glmc_vec4_div
        (.node 2109 f_glmc_vec4_subs
         (.node 2107 f_glmc_vec4_adds
          (.node 2106 f_glmc_vec4_add
           (.node 2105 f_glmc_vec4_norm_inf .leaf .leaf)
           .leaf)
          (.node 2108 f_glmc_vec4_sub .leaf .leaf))
         (.node 2111 f_glmc_vec4_scale
          (.node 2110 f_glmc_vec4_mul .leaf .leaf)
          (.node 2112 f_glmc_vec4_scale_as .leaf .leaf)))
        (.node 2117 f_glmc_vec4_muladd
         (.node 2115 f_glmc_vec4_addadd
          (.node 2114 f_glmc_vec4_divs .leaf .leaf)
          (.node 2116 f_glmc_vec4_subadd .leaf .leaf))
         (.node 2119 f_glmc_vec4_maxadd
          (.node 2118 f_glmc_vec4_muladds .leaf .leaf)
          (.node 2120 f_glmc_vec4_minadd .leaf .leaf)))))))
    (.node 2192 f_glmc_frustum_lh_no
     (.node 2157 f_glmc_vec4_abs
      (.node 2139 f_glmc_vec4_smoothinterp
       (.node 2130 f_glmc_vec4_distance2
        (.node 2126 f_glmc_vec4_minsub
         (.node 2124 f_glmc_vec4_mulsubs
          (.node 2123 f_glmc_vec4_mulsub
           (.node 2122 f_glmc_vec4_addsub .leaf .leaf)
           .leaf)
          (.node 2125 f_glmc_vec4_maxsub .leaf .leaf))
         (.node 2128 f_glmc_vec4_negate_to
          (.node 2127 f_glmc_vec4_negate .leaf .leaf)
          (.node 2129 f_glmc_vec4_distance .leaf .leaf)))
        (.node 2135 f_glmc_vec4_lerpc
         (.node 2133 f_glmc_vec4_clamp
          (.node 2132 f_glmc_vec4_minv
           (.node 2131 f_glmc_vec4_maxv .leaf .leaf)
           .leaf)
          (.node 2134 f_glmc_vec4_lerp .leaf .leaf))
         (.node 2137 f_glmc_vec4_smoothstep_uni
          (.node 2136 f_glmc_vec4_step .leaf .leaf)
          (.node 2138 f_glmc_vec4_smoothstep .leaf .leaf))))
       (.node 2148 f_glmc_vec4_eq_all
        (.node 2144 f_glmc_vec4_broadcast
         (.node 2142 f_glmc_vec4_swizzle
          (.node 2141 f_glmc_vec4_cubic
           (.node 2140 f_glmc_vec4_smoothinterpc .leaf .leaf)
           .leaf)
          (.node 2143 f_glmc_vec4_mulv .leaf .leaf))
         (.node 2146 f_glmc_vec4_eq
          (.node 2145 f_glmc_vec4_fill .leaf .leaf)
          (.node 2147 f_glmc_vec4_eq_eps .leaf .leaf)))
        (.node 2153 f_glmc_vec4_isnan
         (.node 2151 f_glmc_vec4_max
          (.node 2150 f_glmc_vec4_eqv_eps
           (.node 2149 f_glmc_vec4_eqv .leaf .leaf)
           .leaf)
          (.node 2152 f_glmc_vec4_min .leaf .leaf))
         (.node 2155 f_glmc_vec4_isvalid
          (.node 2154 f_glmc_vec4_isinf .leaf .leaf)
          (.node 2156 f_glmc_vec4_sign .leaf .leaf)))))
      (.node 2175 f_glmc_ortho_aabb_lh_zo
       (.node 2166 f_glmc_vec4_reflect
        (.node 2162 f_glmc_vec4_stepr
         (.node 2160 f_glmc_vec4_mods
          (.node 2159 f_glmc_vec4_floor
           (.node 2158 f_glmc_vec4_fract .leaf .leaf)
           .leaf)
          (.node 2161 f_glmc_vec4_steps .leaf .leaf))
         (.node 2164 f_glmc_vec4_sqrt
          (.node 2163 f_glmc_vec4_hadd .leaf .leaf)
          (.node 2165 f_glmc_vec4_make .leaf .leaf)))
        (.node 2171 f_glmc_ortho_aabb_pz_lh_no
         (.node 2169 f_glmc_ortho_aabb_lh_no
          (.node 2168 f_glmc_ortho_lh_no
           (.node 2167 f_glmc_vec4_refract .leaf .leaf)
           .leaf)
          (.node 2170 f_glmc_ortho_aabb_p_lh_no .leaf .leaf))
         (.node 2173 f_glmc_ortho_default_s_lh_no
          (.node 2172 f_glmc_ortho_default_lh_no .leaf .leaf)
          (.node 2174 f_glmc_ortho_lh_zo .leaf .leaf))))
       (.node 2184 f_glmc_ortho_default_rh_no
        (.node 2180 f_glmc_ortho_rh_no
         (.node 2178 f_glmc_ortho_default_lh_zo
          (.node 2177 f_glmc_ortho_aabb_pz_lh_zo
           (.node 2176 f_glmc_ortho_aabb_p_lh_zo .leaf .leaf)
           .leaf)
          (.node 2179 f_glmc_ortho_default_s_lh_zo .leaf .leaf))
         (.node 2182 f_glmc_ortho_aabb_p_rh_no
          (.node 2181 f_glmc_ortho_aabb_rh_no .leaf .leaf)
          (.node 2183 f_glmc_ortho_aabb_pz_rh_no .leaf .leaf)))
        (.node 2188 f_glmc_ortho_aabb_p_rh_zo
         (.node 2186 f_glmc_ortho_rh_zo
          (.node 2185 f_glmc_ortho_default_s_rh_no .leaf .leaf)
          (.node 2187 f_glmc_ortho_aabb_rh_zo .leaf .leaf))
         (.node 2190 f_glmc_ortho_default_rh_zo
          (.node 2189 f_glmc_ortho_aabb_pz_rh_zo .leaf .leaf)
          (.node 2191 f_glmc_ortho_default_s_rh_zo .leaf .leaf))))))
     (.node 2227 f_glmc_persp_decomp_near_rh_no
      (.node 2210 f_glmc_persp_decomp_x_lh_zo
       (.node 2201 f_glmc_persp_decomp_near_lh_no
        (.node 2197 f_glmc_persp_decomp_x_lh_no
         (.node 2195 f_glmc_persp_decomp_lh_no
          (.node 2194 f_glmc_persp_move_far_lh_no
           (.node 2193 f_glmc_perspective_lh_no .leaf .leaf)
           .leaf)
          (.node 2196 f_glmc_persp_decompv_lh_no .leaf .leaf))
         (.node 2199 f_glmc_persp_decomp_z_lh_no
          (.node 2198 f_glmc_persp_decomp_y_lh_no .leaf .leaf)
          (.node 2200 f_glmc_persp_decomp_far_lh_no .leaf .leaf)))
        (.node 2206 f_glmc_perspective_lh_zo
         (.node 2204 f_glmc_persp_aspect_lh_no
          (.node 2203 f_glmc_persp_fovy_lh_no
           (.node 2202 f_glmc_persp_sizes_lh_no .leaf .leaf)
           .leaf)
          (.node 2205 f_glmc_frustum_lh_zo .leaf .leaf))
         (.node 2208 f_glmc_persp_decomp_lh_zo
          (.node 2207 f_glmc_persp_move_far_lh_zo .leaf .leaf)
          (.node 2209 f_glmc_persp_decompv_lh_zo .leaf .leaf))))
       (.node 2219 f_glmc_perspective_rh_no
        (.node 2215 f_glmc_persp_sizes_lh_zo
         (.node 2213 f_glmc_persp_decomp_far_lh_zo
          (.node 2212 f_glmc_persp_decomp_z_lh_zo
           (.node 2211 f_glmc_persp_decomp_y_lh_zo .leaf .leaf)
           .leaf)
          (.node 2214 f_glmc_persp_decomp_near_lh_zo .leaf .leaf))
         (.node 2217 f_glmc_persp_aspect_lh_zo
          (.node 2216 f_glmc_persp_fovy_lh_zo .leaf .leaf)
          (.node 2218 f_glmc_frustum_rh_no .leaf .leaf)))
        (.node 2223 f_glmc_persp_decomp_x_rh_no
         (.node 2221 f_glmc_persp_decomp_rh_no
          (.node 2220 f_glmc_persp_move_far_rh_no .leaf .leaf)
          (.node 2222 f_glmc_persp_decompv_rh_no .leaf .leaf))
         (.node 2225 f_glmc_persp_decomp_z_rh_no
          (.node 2224 f_glmc_persp_decomp_y_rh_no .leaf .leaf)
          (.node 2226 f_glmc_persp_decomp_far_rh_no .leaf .leaf)))))
      (.node 2245 f_glmc_project_no
       (.node 2236 f_glmc_persp_decomp_x_rh_zo
        (.node 2232 f_glmc_perspective_rh_zo
         (.node 2230 f_glmc_persp_aspect_rh_no
          (.node 2229 f_glmc_persp_fovy_rh_no
           (.node 2228 f_glmc_persp_sizes_rh_no .leaf .leaf)
           .leaf)
          (.node 2231 f_glmc_frustum_rh_zo .leaf .leaf))
         (.node 2234 f_glmc_persp_decomp_rh_zo
          (.node 2233 f_glmc_persp_move_far_rh_zo .leaf .leaf)
          (.node 2235 f_glmc_persp_decompv_rh_zo .leaf .leaf)))
        (.node 2241 f_glmc_persp_sizes_rh_zo
         (.node 2239 f_glmc_persp_decomp_far_rh_zo
          (.node 2238 f_glmc_persp_decomp_z_rh_zo
           (.node 2237 f_glmc_persp_decomp_y_rh_zo .leaf .leaf)
           .leaf)
          (.node 2240 f_glmc_persp_decomp_near_rh_zo .leaf .leaf))
         (.node 2243 f_glmc_persp_aspect_rh_zo
          (.node 2242 f_glmc_persp_fovy_rh_zo .leaf .leaf)
          (.node 2244 f_glmc_unprojecti_no .leaf .leaf))))
       (.node 2254 f_glmc_look_lh_zo
        (.node 2250 f_glmc_lookat_lh_no
         (.node 2248 f_glmc_project_zo
          (.node 2247 f_glmc_unprojecti_zo
           (.node 2246 f_glmc_project_z_no .leaf .leaf)
           .leaf)
          (.node 2249 f_glmc_project_z_zo .leaf .leaf))
         (.node 2252 f_glmc_look_anyup_lh_no
          (.node 2251 f_glmc_look_lh_no .leaf .leaf)
          (.node 2253 f_glmc_lookat_lh_zo .leaf .leaf)))
        (.node 2258 f_glmc_look_anyup_rh_no
         (.node 2256 f_glmc_lookat_rh_no
          (.node 2255 f_glmc_look_anyup_lh_zo .leaf .leaf)
          (.node 2257 f_glmc_look_rh_no .leaf .leaf))
         (.node 2260 f_glmc_look_rh_zo
          (.node 2259 f_glmc_lookat_rh_zo .leaf .leaf)
          (.node 2261 f_glmc_look_anyup_rh_zo .leaf .leaf))))))))))

end Cglm.Acc
