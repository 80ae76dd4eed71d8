import Verif.Io

/-!
# Print functions: switches and wrappers

`io.h` keeps the print functions or replaces them by empty macros, depending on four macros of the build.  The wrappers of the
struct interface are inlined into the program of the user and follow its macros; those of the library file `src/io.c` are
compiled with `CGLM_LIB_SRC`.
-/

namespace Cglm

/-- the macros that `io.h` tests -/
structure PrintFlags where
  ndebug : Bool
  definePrints : Bool
  libSrc : Bool
  noPrintsNoop : Bool

/-- include/cglm/io.h:41-43 -/
def PrintFlags.on (b : PrintFlags) : Bool := !b.ndebug || b.definePrints || b.libSrc || b.noPrintsNoop

/-- include/cglm/io.h:417-437: the function where it is defined, the macro that does nothing otherwise -/
def PrintFlags.run (b : PrintFlags) (print : Text → Text) (ostream : Text) : Text := if b.on then print ostream else ostream

/-- include/cglm/struct/io.h:32-38 -/
def glms_mat4_print (b : PrintFlags) (cfg : PrintCfg) (matrix : M4 F32) (ostream : Text) : Text :=
  b.run (glm_mat4_print cfg matrix) ostream
/-- include/cglm/struct/io.h:40-45 -/
def glms_mat3_print (b : PrintFlags) (cfg : PrintCfg) (matrix : M3 F32) (ostream : Text) : Text :=
  b.run (glm_mat3_print cfg matrix) ostream
/-- include/cglm/struct/io.h:47-52 -/
def glms_vec4_print (b : PrintFlags) (cfg : PrintCfg) (vec : V4 F32) (ostream : Text) : Text :=
  b.run (glm_vec4_print cfg vec) ostream
/-- include/cglm/struct/io.h:54-59 -/
def glms_ivec4_print (b : PrintFlags) (cfg : PrintCfg) (vec : V4 ℤ) (ostream : Text) : Text :=
  b.run (glm_ivec4_print cfg vec) ostream
/-- include/cglm/struct/io.h:61-66 -/
def glms_vec3_print (b : PrintFlags) (cfg : PrintCfg) (vec : V3 F32) (ostream : Text) : Text :=
  b.run (glm_vec3_print cfg vec) ostream
/-- include/cglm/struct/io.h:68-73 -/
def glms_ivec3_print (b : PrintFlags) (cfg : PrintCfg) (vec : V3 ℤ) (ostream : Text) : Text :=
  b.run (glm_ivec3_print cfg vec) ostream
/-- include/cglm/struct/io.h:75-80 -/
def glms_vec2_print (b : PrintFlags) (cfg : PrintCfg) (vec : V2 F32) (ostream : Text) : Text :=
  b.run (glm_vec2_print cfg vec) ostream
/-- include/cglm/struct/io.h:82-87 -/
def glms_ivec2_print (b : PrintFlags) (cfg : PrintCfg) (vec : V2 ℤ) (ostream : Text) : Text :=
  b.run (glm_ivec2_print cfg vec) ostream
/-- include/cglm/struct/io.h:89-94 -/
def glms_versor_print (b : PrintFlags) (cfg : PrintCfg) (vec : V4 F32) (ostream : Text) : Text :=
  b.run (glm_versor_print cfg vec) ostream
/-- include/cglm/struct/io.h:96-105 -/
def glms_aabb_print (b : PrintFlags) (cfg : PrintCfg) (bbox : M2x3 F32) (tag : Option Text) (ostream : Text) : Text :=
  b.run (glm_aabb_print cfg bbox tag) ostream

/-- src/io.c:13-18; line 8 defines `CGLM_LIB_SRC` -/
def glmc_mat4_print (b : PrintFlags) (cfg : PrintCfg) (matrix : M4 F32) (ostream : Text) : Text :=
  { b with libSrc := true }.run (glm_mat4_print cfg matrix) ostream
/-- src/io.c:20-25; line 8 defines `CGLM_LIB_SRC` -/
def glmc_mat3_print (b : PrintFlags) (cfg : PrintCfg) (matrix : M3 F32) (ostream : Text) : Text :=
  { b with libSrc := true }.run (glm_mat3_print cfg matrix) ostream
/-- src/io.c:27-32; line 8 defines `CGLM_LIB_SRC` -/
def glmc_vec4_print (b : PrintFlags) (cfg : PrintCfg) (vec : V4 F32) (ostream : Text) : Text :=
  { b with libSrc := true }.run (glm_vec4_print cfg vec) ostream
/-- src/io.c:34-39; line 8 defines `CGLM_LIB_SRC` -/
def glmc_vec3_print (b : PrintFlags) (cfg : PrintCfg) (vec : V3 F32) (ostream : Text) : Text :=
  { b with libSrc := true }.run (glm_vec3_print cfg vec) ostream
/-- src/io.c:41-46; line 8 defines `CGLM_LIB_SRC` -/
def glmc_versor_print (b : PrintFlags) (cfg : PrintCfg) (vec : V4 F32) (ostream : Text) : Text :=
  { b with libSrc := true }.run (glm_versor_print cfg vec) ostream

end Cglm
