import Verif.Layout
/-! Generated by tools/layoutgen.py from include/cglm/types.h and include/cglm/types-struct.h.  Do not edit. -/

namespace Cglm.Layout

/-- the macros the declarations depend on -/
structure Config where
  /-- `CGLM_ALIGN(x)` is an alignment attribute; it is empty for old versions of Visual Studio (types.h:15-26) -/
  attr : Bool
  /-- `CGLM_ALL_UNALIGNED` (types.h:28-32) -/
  allUnaligned : Bool
  /-- `__AVX__` (types.h:34-38) -/
  avx : Bool
  /-- `CGLM_USE_ANONYMOUS_STRUCT` (types-struct.h:20-54) -/
  anon : Bool
deriving DecidableEq, Repr

namespace Config
variable (c : Config)
/-- where `CGLM_ALIGN` is empty, types.h also defines `CGLM_ALL_UNALIGNED` (types.h:18-19) -/
def Valid : Prop := c.attr = false → c.allUnaligned = true
instance : Decidable c.Valid := by unfold Valid; infer_instance
/-- `CGLM_ALIGN(x)`, types.h:20-25 -/
def al (a : Nat) (t : CTy) : CTy := if c.attr then .alignedTypedef a t else t
/-- `CGLM_ALIGN_IF(x)`, types.h:28-32 -/
def alIf (a : Nat) (t : CTy) : CTy := if c.allUnaligned then t else c.al a t
/-- `CGLM_ALIGN_MAT`, types.h:34-38 -/
def alMat (t : CTy) : CTy := c.al (if c.avx then 32 else 16) t
/-- `union CGLM_ALIGN(x) { … }` -/
def unionAl (a : Nat) (fs : Members) : CTy := if c.attr then .alignedUnion a fs else .union fs
/-- `union CGLM_ALIGN_IF(x) { … }` -/
def unionAlIf (a : Nat) (fs : Members) : CTy := if c.allUnaligned then .union fs else c.unionAl a fs
/-- `union CGLM_ALIGN_MAT { … }` -/
def unionAlMat (fs : Members) : CTy := c.unionAl (if c.avx then 32 else 16) fs
/-- members between `#if CGLM_USE_ANONYMOUS_STRUCT` and `#endif` -/
def ifAnon (a b : Members) : Members := if c.anon then a else b
end Config

open CTy Members
variable (c : Config)


/-- `ivec2`: include/cglm/types.h:76. -/
def ivec2 (_ : Config) : CTy := .arr 2 (.scalar .int)

/-- `ivec3`: include/cglm/types.h:77. -/
def ivec3 (_ : Config) : CTy := .arr 3 (.scalar .int)

/-- `ivec4`: include/cglm/types.h:78. -/
def ivec4 (_ : Config) : CTy := .arr 4 (.scalar .int)

/-- `vec2`: include/cglm/types.h:80. -/
def vec2 (_ : Config) : CTy := .arr 2 (.scalar .float)

/-- `vec3`: include/cglm/types.h:81. -/
def vec3 (_ : Config) : CTy := .arr 3 (.scalar .float)

/-- `vec4`: include/cglm/types.h:82. -/
def vec4 : CTy := c.alIf 16 (.arr 4 (.scalar .float))

/-- `versor`: include/cglm/types.h:83. -/
def versor : CTy := vec4 c

/-- `mat3`: include/cglm/types.h:84. -/
def mat3 : CTy := .arr 3 (vec3 c)

/-- `mat3x2`: include/cglm/types.h:85. -/
def mat3x2 : CTy := .arr 3 (vec2 c)

/-- `mat3x4`: include/cglm/types.h:86. -/
def mat3x4 : CTy := .arr 3 (vec4 c)

/-- `mat2`: include/cglm/types.h:87. -/
def mat2 : CTy := c.alIf 16 (.arr 2 (vec2 c))

/-- `mat2x3`: include/cglm/types.h:88. -/
def mat2x3 : CTy := .arr 2 (vec3 c)

/-- `mat2x4`: include/cglm/types.h:89. -/
def mat2x4 : CTy := .arr 2 (vec4 c)

/-- `mat4`: include/cglm/types.h:90. -/
def mat4 : CTy := c.alMat (.arr 4 (vec4 c))

/-- `mat4x2`: include/cglm/types.h:91. -/
def mat4x2 : CTy := .arr 4 (vec2 c)

/-- `mat4x3`: include/cglm/types.h:92. -/
def mat4x3 : CTy := .arr 4 (vec3 c)

/-- `vec2s`: include/cglm/types-struct.h:56-79. -/
def vec2s : CTy :=
  .union (.cons "raw" (vec2 c) (c.ifAnon (.cons "" (.struct (.cons "x" (.scalar .float) (.cons "y" (.scalar .float) .nil))) (.cons "" (.struct (.cons "r" (.scalar .float) (.cons "i" (.scalar .float) .nil))) (.cons "" (.struct (.cons "u" (.scalar .float) (.cons "v" (.scalar .float) .nil))) (.cons "" (.struct (.cons "s" (.scalar .float) (.cons "t" (.scalar .float) .nil))) .nil)))) (.nil)))

/-- `vec3s`: include/cglm/types-struct.h:81-96. -/
def vec3s : CTy :=
  .union (.cons "raw" (vec3 c) (c.ifAnon (.cons "" (.struct (.cons "x" (.scalar .float) (.cons "y" (.scalar .float) (.cons "z" (.scalar .float) .nil)))) (.cons "" (.struct (.cons "r" (.scalar .float) (.cons "g" (.scalar .float) (.cons "b" (.scalar .float) .nil)))) .nil)) (.nil)))

/-- `ivec2s`: include/cglm/types-struct.h:98-121. -/
def ivec2s : CTy :=
  .union (.cons "raw" (ivec2 c) (c.ifAnon (.cons "" (.struct (.cons "x" (.scalar .int) (.cons "y" (.scalar .int) .nil))) (.cons "" (.struct (.cons "r" (.scalar .int) (.cons "i" (.scalar .int) .nil))) (.cons "" (.struct (.cons "u" (.scalar .int) (.cons "v" (.scalar .int) .nil))) (.cons "" (.struct (.cons "s" (.scalar .int) (.cons "t" (.scalar .int) .nil))) .nil)))) (.nil)))

/-- `ivec3s`: include/cglm/types-struct.h:123-138. -/
def ivec3s : CTy :=
  .union (.cons "raw" (ivec3 c) (c.ifAnon (.cons "" (.struct (.cons "x" (.scalar .int) (.cons "y" (.scalar .int) (.cons "z" (.scalar .int) .nil)))) (.cons "" (.struct (.cons "r" (.scalar .int) (.cons "g" (.scalar .int) (.cons "b" (.scalar .int) .nil)))) .nil)) (.nil)))

/-- `ivec4s`: include/cglm/types-struct.h:140-157. -/
def ivec4s : CTy :=
  .union (.cons "raw" (ivec4 c) (c.ifAnon (.cons "" (.struct (.cons "x" (.scalar .int) (.cons "y" (.scalar .int) (.cons "z" (.scalar .int) (.cons "w" (.scalar .int) .nil))))) (.cons "" (.struct (.cons "r" (.scalar .int) (.cons "g" (.scalar .int) (.cons "b" (.scalar .int) (.cons "a" (.scalar .int) .nil))))) .nil)) (.nil)))

/-- `vec4s`: include/cglm/types-struct.h:159-176. -/
def vec4s : CTy :=
  c.unionAlIf 16 (.cons "raw" (vec4 c) (c.ifAnon (.cons "" (.struct (.cons "x" (.scalar .float) (.cons "y" (.scalar .float) (.cons "z" (.scalar .float) (.cons "w" (.scalar .float) .nil))))) (.cons "" (.struct (.cons "r" (.scalar .float) (.cons "g" (.scalar .float) (.cons "b" (.scalar .float) (.cons "a" (.scalar .float) .nil))))) .nil)) (.nil)))

/-- `versors`: include/cglm/types-struct.h:178-193. -/
def versors : CTy :=
  c.unionAlIf 16 (.cons "raw" (vec4 c) (c.ifAnon (.cons "" (.struct (.cons "x" (.scalar .float) (.cons "y" (.scalar .float) (.cons "z" (.scalar .float) (.cons "w" (.scalar .float) .nil))))) (.cons "" (.struct (.cons "imag" (vec3s c) (.cons "real" (.scalar .float) .nil))) .nil)) (.nil)))

/-- `mat2s`: include/cglm/types-struct.h:195-204. -/
def mat2s : CTy :=
  .union (.cons "raw" (mat2 c) (.cons "col" (.arr 2 (vec2s c)) (c.ifAnon (.cons "" (.struct (.cons "m00" (.scalar .float) (.cons "m01" (.scalar .float) (.cons "m10" (.scalar .float) (.cons "m11" (.scalar .float) .nil))))) .nil) (.nil))))

/-- `mat2x3s`: include/cglm/types-struct.h:206-215. -/
def mat2x3s : CTy :=
  .union (.cons "raw" (mat2x3 c) (.cons "col" (.arr 2 (vec3s c)) (c.ifAnon (.cons "" (.struct (.cons "m00" (.scalar .float) (.cons "m01" (.scalar .float) (.cons "m02" (.scalar .float) (.cons "m10" (.scalar .float) (.cons "m11" (.scalar .float) (.cons "m12" (.scalar .float) .nil))))))) .nil) (.nil))))

/-- `mat2x4s`: include/cglm/types-struct.h:217-226. -/
def mat2x4s : CTy :=
  .union (.cons "raw" (mat2x4 c) (.cons "col" (.arr 2 (vec4s c)) (c.ifAnon (.cons "" (.struct (.cons "m00" (.scalar .float) (.cons "m01" (.scalar .float) (.cons "m02" (.scalar .float) (.cons "m03" (.scalar .float) (.cons "m10" (.scalar .float) (.cons "m11" (.scalar .float) (.cons "m12" (.scalar .float) (.cons "m13" (.scalar .float) .nil))))))))) .nil) (.nil))))

/-- `mat3s`: include/cglm/types-struct.h:228-238. -/
def mat3s : CTy :=
  .union (.cons "raw" (mat3 c) (.cons "col" (.arr 3 (vec3s c)) (c.ifAnon (.cons "" (.struct (.cons "m00" (.scalar .float) (.cons "m01" (.scalar .float) (.cons "m02" (.scalar .float) (.cons "m10" (.scalar .float) (.cons "m11" (.scalar .float) (.cons "m12" (.scalar .float) (.cons "m20" (.scalar .float) (.cons "m21" (.scalar .float) (.cons "m22" (.scalar .float) .nil)))))))))) .nil) (.nil))))

/-- `mat3x2s`: include/cglm/types-struct.h:240-250. -/
def mat3x2s : CTy :=
  .union (.cons "raw" (mat3x2 c) (.cons "col" (.arr 3 (vec2s c)) (c.ifAnon (.cons "" (.struct (.cons "m00" (.scalar .float) (.cons "m01" (.scalar .float) (.cons "m10" (.scalar .float) (.cons "m11" (.scalar .float) (.cons "m20" (.scalar .float) (.cons "m21" (.scalar .float) .nil))))))) .nil) (.nil))))

/-- `mat3x4s`: include/cglm/types-struct.h:252-262. -/
def mat3x4s : CTy :=
  .union (.cons "raw" (mat3x4 c) (.cons "col" (.arr 3 (vec4s c)) (c.ifAnon (.cons "" (.struct (.cons "m00" (.scalar .float) (.cons "m01" (.scalar .float) (.cons "m02" (.scalar .float) (.cons "m03" (.scalar .float) (.cons "m10" (.scalar .float) (.cons "m11" (.scalar .float) (.cons "m12" (.scalar .float) (.cons "m13" (.scalar .float) (.cons "m20" (.scalar .float) (.cons "m21" (.scalar .float) (.cons "m22" (.scalar .float) (.cons "m23" (.scalar .float) .nil))))))))))))) .nil) (.nil))))

/-- `mat4s`: include/cglm/types-struct.h:264-275. -/
def mat4s : CTy :=
  c.unionAlMat (.cons "raw" (mat4 c) (.cons "col" (.arr 4 (vec4s c)) (c.ifAnon (.cons "" (.struct (.cons "m00" (.scalar .float) (.cons "m01" (.scalar .float) (.cons "m02" (.scalar .float) (.cons "m03" (.scalar .float) (.cons "m10" (.scalar .float) (.cons "m11" (.scalar .float) (.cons "m12" (.scalar .float) (.cons "m13" (.scalar .float) (.cons "m20" (.scalar .float) (.cons "m21" (.scalar .float) (.cons "m22" (.scalar .float) (.cons "m23" (.scalar .float) (.cons "m30" (.scalar .float) (.cons "m31" (.scalar .float) (.cons "m32" (.scalar .float) (.cons "m33" (.scalar .float) .nil))))))))))))))))) .nil) (.nil))))

/-- `mat4x2s`: include/cglm/types-struct.h:277-288. -/
def mat4x2s : CTy :=
  .union (.cons "raw" (mat4x2 c) (.cons "col" (.arr 4 (vec2s c)) (c.ifAnon (.cons "" (.struct (.cons "m00" (.scalar .float) (.cons "m01" (.scalar .float) (.cons "m10" (.scalar .float) (.cons "m11" (.scalar .float) (.cons "m20" (.scalar .float) (.cons "m21" (.scalar .float) (.cons "m30" (.scalar .float) (.cons "m31" (.scalar .float) .nil))))))))) .nil) (.nil))))

/-- `mat4x3s`: include/cglm/types-struct.h:290-301. -/
def mat4x3s : CTy :=
  .union (.cons "raw" (mat4x3 c) (.cons "col" (.arr 4 (vec3s c)) (c.ifAnon (.cons "" (.struct (.cons "m00" (.scalar .float) (.cons "m01" (.scalar .float) (.cons "m02" (.scalar .float) (.cons "m10" (.scalar .float) (.cons "m11" (.scalar .float) (.cons "m12" (.scalar .float) (.cons "m20" (.scalar .float) (.cons "m21" (.scalar .float) (.cons "m22" (.scalar .float) (.cons "m30" (.scalar .float) (.cons "m31" (.scalar .float) (.cons "m32" (.scalar .float) .nil))))))))))))) .nil) (.nil))))

end Cglm.Layout
