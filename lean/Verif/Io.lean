import Verif.Printf

/-!
# `io.h`: printing

A stream is the text written to it so far; a print function takes the stream and gives the longer stream.  The macros that a user may define
(`CGLM_PRINT_PRECISION`, `CGLM_PRINT_MAX_TO_SHORT`, `CGLM_PRINT_COLOR`, `CGLM_PRINT_COLOR_RESET`) are the fields of `PrintCfg`.
-/

namespace Cglm
open Printf

/-- include/cglm/io.h:53-75, the macros with user-definable values -/
structure PrintCfg where
  precision : ℕ
  maxToShort : F32
  color : Text
  reset : Text

/-- include/cglm/io.h:53-67, the default values -/
def PrintCfg.default : PrintCfg := ⟨5, F32.ofRat false 100000, "\x1b[36m".toList, "\x1b[0m".toList⟩
/-- include/cglm/io.h:53-59, 68-75, with `GLM_TESTS_NO_COLORFUL_OUTPUT` -/
def PrintCfg.plain : PrintCfg := ⟨5, F32.ofRat false 100000, [], []⟩

/-- include/cglm/io.h:255-258 and the same lines of the other functions: the text of one component, without the blank before it -/
def shortText (cfg : PrintCfg) (x : F32) : Text := if F32.lt x cfg.maxToShort then f cfg.precision x else g x

/-- include/cglm/io.h:254-259, the loop over the components of a vector -/
def printFloats (cfg : PrintCfg) (l : List F32) (ostream : Text) : Text := l.foldl (fun s x => s ++ ' ' :: shortText cfg x) ostream

/-- include/cglm/io.h:245-265 -/
def glm_vec4_print (cfg : PrintCfg) (vec : V4 F32) (ostream : Text) : Text :=
  printFloats cfg [vec.x, vec.y, vec.z, vec.w] (ostream ++ ("Vector (float4): ".toList ++ cfg.color ++ "\n  (".toList)) ++
    ("  )".toList ++ cfg.reset ++ "\n\n".toList)
/-- include/cglm/io.h:285-305 -/
def glm_vec3_print (cfg : PrintCfg) (vec : V3 F32) (ostream : Text) : Text :=
  printFloats cfg [vec.x, vec.y, vec.z] (ostream ++ ("Vector (float3): ".toList ++ cfg.color ++ "\n  (".toList)) ++
    ("  )".toList ++ cfg.reset ++ "\n\n".toList)
/-- include/cglm/io.h:325-345 -/
def glm_vec2_print (cfg : PrintCfg) (vec : V2 F32) (ostream : Text) : Text :=
  printFloats cfg [vec.x, vec.y] (ostream ++ ("Vector (float2): ".toList ++ cfg.color ++ "\n  (".toList)) ++
    ("  )".toList ++ cfg.reset ++ "\n\n".toList)
/-- include/cglm/io.h:365-386 -/
def glm_versor_print (cfg : PrintCfg) (vec : V4 F32) (ostream : Text) : Text :=
  printFloats cfg [vec.x, vec.y, vec.z, vec.w] (ostream ++ ("Quaternion (float4): ".toList ++ cfg.color ++ "\n  (".toList)) ++
    ("  )".toList ++ cfg.reset ++ "\n\n".toList)

/-- include/cglm/io.h:277-278, the loop over the components of an integer vector -/
def printInts (l : List ℤ) (ostream : Text) : Text := l.foldl (fun s z => s ++ ' ' :: d z) ostream

/-- include/cglm/io.h:267-283 -/
def glm_ivec4_print (cfg : PrintCfg) (vec : V4 ℤ) (ostream : Text) : Text :=
  printInts [vec.x, vec.y, vec.z, vec.w] (ostream ++ ("Vector (int4): ".toList ++ cfg.color ++ "\n  (".toList)) ++
    ("  )".toList ++ cfg.reset ++ "\n\n".toList)
/-- include/cglm/io.h:307-323 -/
def glm_ivec3_print (cfg : PrintCfg) (vec : V3 ℤ) (ostream : Text) : Text :=
  printInts [vec.x, vec.y, vec.z] (ostream ++ ("Vector (int3): ".toList ++ cfg.color ++ "\n  (".toList)) ++
    ("  )".toList ++ cfg.reset ++ "\n\n".toList)
/-- include/cglm/io.h:347-363 -/
def glm_ivec2_print (cfg : PrintCfg) (vec : V2 ℤ) (ostream : Text) : Text :=
  printInts [vec.x, vec.y] (ostream ++ ("Vector (int2): ".toList ++ cfg.color ++ "\n  (".toList)) ++
    ("  )".toList ++ cfg.reset ++ "\n\n".toList)

/-- include/cglm/io.h:130-139, the width of a column of the printed matrix: `cw[i]` after the inner loop over `j`; `a i j` is
`matrix[i][j]`, and the buffer has 16 characters -/
def colWidth (cfg : PrintCfg) (k : ℕ) (a : ℕ → ℕ → F32) (i : ℕ) : ℕ :=
  (List.range k).foldl (fun cw j => max cw (snprintf 16 (shortText cfg (a i j))).2) 0

/-- include/cglm/io.h:144-148, one element: the test looks at `matrix[i][j]`, the text is that of `matrix[j][i]` -/
def printCell (cfg : PrintCfg) (k : ℕ) (a : ℕ → ℕ → F32) (i j : ℕ) : Text :=
  ' ' :: width (colWidth cfg k a j) (if F32.lt (a i j) cfg.maxToShort then f cfg.precision (a j i) else g (a j i))

/-- include/cglm/io.h:141-151, the loop over the rows -/
def printRows (cfg : PrintCfg) (k : ℕ) (a : ℕ → ℕ → F32) (ostream : Text) : Text :=
  (List.range k).foldl (fun s i =>
    (List.range k).foldl (fun s j => s ++ printCell cfg k a i j) (s ++ "  |".toList) ++ "  |\n".toList) ostream

/-- the elements of a matrix by C's indices -/
def M4.at (m : M4 F32) (i j : ℕ) : F32 :=
  let c := match i with | 0 => m.c0 | 1 => m.c1 | 2 => m.c2 | _ => m.c3
  match j with | 0 => c.x | 1 => c.y | 2 => c.z | _ => c.w
def M3.at (m : M3 F32) (i j : ℕ) : F32 :=
  let c := match i with | 0 => m.c0 | 1 => m.c1 | _ => m.c2
  match j with | 0 => c.x | 1 => c.y | _ => c.z
def M2.at (m : M2 F32) (i j : ℕ) : F32 :=
  let c := match i with | 0 => m.c0 | _ => m.c1
  match j with | 0 => c.x | _ => c.y

/-- include/cglm/io.h:118-158 -/
def glm_mat4_print (cfg : PrintCfg) (matrix : M4 F32) (ostream : Text) : Text :=
  printRows cfg 4 matrix.at (ostream ++ ("Matrix (float4x4): ".toList ++ cfg.color ++ "\n".toList)) ++ (cfg.reset ++ "\n".toList)
/-- include/cglm/io.h:161-201 -/
def glm_mat3_print (cfg : PrintCfg) (matrix : M3 F32) (ostream : Text) : Text :=
  printRows cfg 3 matrix.at (ostream ++ ("Matrix (float3x3): ".toList ++ cfg.color ++ "\n".toList)) ++ (cfg.reset ++ "\n".toList)
/-- include/cglm/io.h:203-243 -/
def glm_mat2_print (cfg : PrintCfg) (matrix : M2 F32) (ostream : Text) : Text :=
  printRows cfg 2 matrix.at (ostream ++ ("Matrix (float2x2): ".toList ++ cfg.color ++ "\n".toList)) ++ (cfg.reset ++ "\n".toList)

/-- include/cglm/io.h:388-415; `tag` is `none` for a null pointer -/
def glm_aabb_print (cfg : PrintCfg) (bbox : M2x3 F32) (tag : Option Text) (ostream : Text) : Text :=
  [bbox.c0, bbox.c1].foldl (fun s v => printFloats cfg [v.x, v.y, v.z] (s ++ "  (".toList) ++ "  )\n".toList)
      (ostream ++ ("AABB (".toList ++ tag.getD "float".toList ++ "): ".toList ++ cfg.color ++ "\n".toList)) ++
    (cfg.reset ++ "\n".toList)

/-- the macros that `glm_arch_print` tests -/
structure Arch where
  wasm : Bool
  x86 : Bool
  avx : Bool
  arm : Bool
  neonFp : Bool
  arm64 : Bool

/-- include/cglm/io.h:80-103 -/
def glm_arch_print (cfg : PrintCfg) (a : Arch) (ostream : Text) : Text :=
  ostream ++ (cfg.color ++ "arch: ".toList ++
    (if a.wasm then "wasm SIMD128".toList
     else if a.x86 then "x86 SSE* ".toList ++ (if a.avx then " AVX".toList else [])
     else if a.arm then "arm".toList ++ (if a.neonFp then [] else " NEON_FP".toList) ++ (if a.arm64 then " ARM64".toList else [])
     else "uncommon".toList) ++ cfg.reset)
/-- include/cglm/io.h:110-116 -/
def glm_arch_print_name (cfg : PrintCfg) (a : Arch) (ostream : Text) : Text :=
  glm_arch_print cfg a (ostream ++ (cfg.color ++ "\ncglm ".toList)) ++ ("\n\n".toList ++ cfg.reset)

end Cglm
