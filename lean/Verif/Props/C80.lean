import Verif.Types
/-!
# C80: where the elements are in memory

For every configuration of the headers: array and structure types have the same size and alignment and no padding, and every way
to name an element (`raw`, `col`, `x`, `m12`, …) gives the same place, that of column-major storage.  Written by
`tools/layoutgen.py`.
-/
open Cglm.Layout
namespace Cglm.Layout

/-- `vec2` and `vec2s` -/
theorem C80_vec2 (c : Config) :
    (vec2 c).size = 8 ∧ (vec2s c).size = 8 ∧ (vec2s c).align = (vec2 c).align ∧
    ∀ i < 2, (vec2 c).scalarAt [.index i] = some (4 * i, .float) ∧ (vec2s c).scalarAt [.field "raw", .index i] = some (4 * i, .float) := by
  rcases c with ⟨_ | _, _ | _, _ | _, _ | _⟩ <;> decide +kernel

/-- member names of `vec2s` -/
theorem C80_vec2s_names (c : Config) (h : c.anon = true) :
    (vec2s c).scalarAt [.field "x"] = some (0, .float) ∧
    (vec2s c).scalarAt [.field "y"] = some (4, .float) ∧
    (vec2s c).scalarAt [.field "r"] = some (0, .float) ∧
    (vec2s c).scalarAt [.field "i"] = some (4, .float) ∧
    (vec2s c).scalarAt [.field "u"] = some (0, .float) ∧
    (vec2s c).scalarAt [.field "v"] = some (4, .float) ∧
    (vec2s c).scalarAt [.field "s"] = some (0, .float) ∧
    (vec2s c).scalarAt [.field "t"] = some (4, .float) := by
  rcases c with ⟨_ | _, _ | _, _ | _, _ | _⟩ <;> first | (exact absurd h (by decide)) | decide +kernel

/-- `vec3` and `vec3s` -/
theorem C80_vec3 (c : Config) :
    (vec3 c).size = 12 ∧ (vec3s c).size = 12 ∧ (vec3s c).align = (vec3 c).align ∧
    ∀ i < 3, (vec3 c).scalarAt [.index i] = some (4 * i, .float) ∧ (vec3s c).scalarAt [.field "raw", .index i] = some (4 * i, .float) := by
  rcases c with ⟨_ | _, _ | _, _ | _, _ | _⟩ <;> decide +kernel

/-- member names of `vec3s` -/
theorem C80_vec3s_names (c : Config) (h : c.anon = true) :
    (vec3s c).scalarAt [.field "x"] = some (0, .float) ∧
    (vec3s c).scalarAt [.field "y"] = some (4, .float) ∧
    (vec3s c).scalarAt [.field "z"] = some (8, .float) ∧
    (vec3s c).scalarAt [.field "r"] = some (0, .float) ∧
    (vec3s c).scalarAt [.field "g"] = some (4, .float) ∧
    (vec3s c).scalarAt [.field "b"] = some (8, .float) := by
  rcases c with ⟨_ | _, _ | _, _ | _, _ | _⟩ <;> first | (exact absurd h (by decide)) | decide +kernel

/-- `vec4` and `vec4s` -/
theorem C80_vec4 (c : Config) :
    (vec4 c).size = 16 ∧ (vec4s c).size = 16 ∧ (vec4s c).align = (vec4 c).align ∧
    ∀ i < 4, (vec4 c).scalarAt [.index i] = some (4 * i, .float) ∧ (vec4s c).scalarAt [.field "raw", .index i] = some (4 * i, .float) := by
  rcases c with ⟨_ | _, _ | _, _ | _, _ | _⟩ <;> decide +kernel

/-- member names of `vec4s` -/
theorem C80_vec4s_names (c : Config) (h : c.anon = true) :
    (vec4s c).scalarAt [.field "x"] = some (0, .float) ∧
    (vec4s c).scalarAt [.field "y"] = some (4, .float) ∧
    (vec4s c).scalarAt [.field "z"] = some (8, .float) ∧
    (vec4s c).scalarAt [.field "w"] = some (12, .float) ∧
    (vec4s c).scalarAt [.field "r"] = some (0, .float) ∧
    (vec4s c).scalarAt [.field "g"] = some (4, .float) ∧
    (vec4s c).scalarAt [.field "b"] = some (8, .float) ∧
    (vec4s c).scalarAt [.field "a"] = some (12, .float) := by
  rcases c with ⟨_ | _, _ | _, _ | _, _ | _⟩ <;> first | (exact absurd h (by decide)) | decide +kernel

/-- `versor` and `versors` -/
theorem C80_versor (c : Config) :
    (versor c).size = 16 ∧ (versors c).size = 16 ∧ (versors c).align = (versor c).align ∧
    ∀ i < 4, (versor c).scalarAt [.index i] = some (4 * i, .float) ∧ (versors c).scalarAt [.field "raw", .index i] = some (4 * i, .float) := by
  rcases c with ⟨_ | _, _ | _, _ | _, _ | _⟩ <;> decide +kernel

/-- member names of `versors` -/
theorem C80_versors_names (c : Config) (h : c.anon = true) :
    (versors c).scalarAt [.field "x"] = some (0, .float) ∧
    (versors c).scalarAt [.field "y"] = some (4, .float) ∧
    (versors c).scalarAt [.field "z"] = some (8, .float) ∧
    (versors c).scalarAt [.field "w"] = some (12, .float) ∧
    (versors c).part [.field "imag"] = some (0, vec3s c) ∧
    (∀ i < 3, (versors c).scalarAt [.field "imag", .field "raw", .index i] = some (4 * i, .float)) ∧
    (versors c).scalarAt [.field "real"] = some (12, .float) := by
  rcases c with ⟨_ | _, _ | _, _ | _, _ | _⟩ <;> first | (exact absurd h (by decide)) | exact ⟨by decide +kernel, by decide +kernel, by decide +kernel, by decide +kernel, rfl, by decide +kernel, by decide +kernel⟩

/-- `ivec2` and `ivec2s` -/
theorem C80_ivec2 (c : Config) :
    (ivec2 c).size = 8 ∧ (ivec2s c).size = 8 ∧ (ivec2s c).align = (ivec2 c).align ∧
    ∀ i < 2, (ivec2 c).scalarAt [.index i] = some (4 * i, .int) ∧ (ivec2s c).scalarAt [.field "raw", .index i] = some (4 * i, .int) := by
  rcases c with ⟨_ | _, _ | _, _ | _, _ | _⟩ <;> decide +kernel

/-- member names of `ivec2s` -/
theorem C80_ivec2s_names (c : Config) (h : c.anon = true) :
    (ivec2s c).scalarAt [.field "x"] = some (0, .int) ∧
    (ivec2s c).scalarAt [.field "y"] = some (4, .int) ∧
    (ivec2s c).scalarAt [.field "r"] = some (0, .int) ∧
    (ivec2s c).scalarAt [.field "i"] = some (4, .int) ∧
    (ivec2s c).scalarAt [.field "u"] = some (0, .int) ∧
    (ivec2s c).scalarAt [.field "v"] = some (4, .int) ∧
    (ivec2s c).scalarAt [.field "s"] = some (0, .int) ∧
    (ivec2s c).scalarAt [.field "t"] = some (4, .int) := by
  rcases c with ⟨_ | _, _ | _, _ | _, _ | _⟩ <;> first | (exact absurd h (by decide)) | decide +kernel

/-- `ivec3` and `ivec3s` -/
theorem C80_ivec3 (c : Config) :
    (ivec3 c).size = 12 ∧ (ivec3s c).size = 12 ∧ (ivec3s c).align = (ivec3 c).align ∧
    ∀ i < 3, (ivec3 c).scalarAt [.index i] = some (4 * i, .int) ∧ (ivec3s c).scalarAt [.field "raw", .index i] = some (4 * i, .int) := by
  rcases c with ⟨_ | _, _ | _, _ | _, _ | _⟩ <;> decide +kernel

/-- member names of `ivec3s` -/
theorem C80_ivec3s_names (c : Config) (h : c.anon = true) :
    (ivec3s c).scalarAt [.field "x"] = some (0, .int) ∧
    (ivec3s c).scalarAt [.field "y"] = some (4, .int) ∧
    (ivec3s c).scalarAt [.field "z"] = some (8, .int) ∧
    (ivec3s c).scalarAt [.field "r"] = some (0, .int) ∧
    (ivec3s c).scalarAt [.field "g"] = some (4, .int) ∧
    (ivec3s c).scalarAt [.field "b"] = some (8, .int) := by
  rcases c with ⟨_ | _, _ | _, _ | _, _ | _⟩ <;> first | (exact absurd h (by decide)) | decide +kernel

/-- `ivec4` and `ivec4s` -/
theorem C80_ivec4 (c : Config) :
    (ivec4 c).size = 16 ∧ (ivec4s c).size = 16 ∧ (ivec4s c).align = (ivec4 c).align ∧
    ∀ i < 4, (ivec4 c).scalarAt [.index i] = some (4 * i, .int) ∧ (ivec4s c).scalarAt [.field "raw", .index i] = some (4 * i, .int) := by
  rcases c with ⟨_ | _, _ | _, _ | _, _ | _⟩ <;> decide +kernel

/-- member names of `ivec4s` -/
theorem C80_ivec4s_names (c : Config) (h : c.anon = true) :
    (ivec4s c).scalarAt [.field "x"] = some (0, .int) ∧
    (ivec4s c).scalarAt [.field "y"] = some (4, .int) ∧
    (ivec4s c).scalarAt [.field "z"] = some (8, .int) ∧
    (ivec4s c).scalarAt [.field "w"] = some (12, .int) ∧
    (ivec4s c).scalarAt [.field "r"] = some (0, .int) ∧
    (ivec4s c).scalarAt [.field "g"] = some (4, .int) ∧
    (ivec4s c).scalarAt [.field "b"] = some (8, .int) ∧
    (ivec4s c).scalarAt [.field "a"] = some (12, .int) := by
  rcases c with ⟨_ | _, _ | _, _ | _, _ | _⟩ <;> first | (exact absurd h (by decide)) | decide +kernel

/-- `mat2` and `mat2s`: 2 columns of 2 -/
theorem C80_mat2 (c : Config) :
    (mat2 c).size = 16 ∧ (mat2s c).size = 16 ∧ (mat2s c).align = (mat2 c).align ∧
    ∀ j < 2, ∀ i < 2, (mat2 c).scalarAt [.index j, .index i] = some (4 * (2 * j + i), .float) ∧
      (mat2s c).scalarAt [.field "raw", .index j, .index i] = some (4 * (2 * j + i), .float) ∧
      (mat2s c).scalarAt [.field "col", .index j, .field "raw", .index i] = some (4 * (2 * j + i), .float) := by
  rcases c with ⟨_ | _, _ | _, _ | _, _ | _⟩ <;> decide +kernel

/-- member names of `mat2s` -/
theorem C80_mat2s_names (c : Config) (h : c.anon = true) :
    (mat2s c).scalarAt [.field "m00"] = some (0, .float) ∧
    (mat2s c).scalarAt [.field "m01"] = some (4, .float) ∧
    (mat2s c).scalarAt [.field "m10"] = some (8, .float) ∧
    (mat2s c).scalarAt [.field "m11"] = some (12, .float) := by
  rcases c with ⟨_ | _, _ | _, _ | _, _ | _⟩ <;> first | (exact absurd h (by decide)) | decide +kernel

/-- `mat2x3` and `mat2x3s`: 2 columns of 3 -/
theorem C80_mat2x3 (c : Config) :
    (mat2x3 c).size = 24 ∧ (mat2x3s c).size = 24 ∧ (mat2x3s c).align = (mat2x3 c).align ∧
    ∀ j < 2, ∀ i < 3, (mat2x3 c).scalarAt [.index j, .index i] = some (4 * (3 * j + i), .float) ∧
      (mat2x3s c).scalarAt [.field "raw", .index j, .index i] = some (4 * (3 * j + i), .float) ∧
      (mat2x3s c).scalarAt [.field "col", .index j, .field "raw", .index i] = some (4 * (3 * j + i), .float) := by
  rcases c with ⟨_ | _, _ | _, _ | _, _ | _⟩ <;> decide +kernel

/-- member names of `mat2x3s` -/
theorem C80_mat2x3s_names (c : Config) (h : c.anon = true) :
    (mat2x3s c).scalarAt [.field "m00"] = some (0, .float) ∧
    (mat2x3s c).scalarAt [.field "m01"] = some (4, .float) ∧
    (mat2x3s c).scalarAt [.field "m02"] = some (8, .float) ∧
    (mat2x3s c).scalarAt [.field "m10"] = some (12, .float) ∧
    (mat2x3s c).scalarAt [.field "m11"] = some (16, .float) ∧
    (mat2x3s c).scalarAt [.field "m12"] = some (20, .float) := by
  rcases c with ⟨_ | _, _ | _, _ | _, _ | _⟩ <;> first | (exact absurd h (by decide)) | decide +kernel

/-- `mat2x4` and `mat2x4s`: 2 columns of 4 -/
theorem C80_mat2x4 (c : Config) :
    (mat2x4 c).size = 32 ∧ (mat2x4s c).size = 32 ∧ (mat2x4s c).align = (mat2x4 c).align ∧
    ∀ j < 2, ∀ i < 4, (mat2x4 c).scalarAt [.index j, .index i] = some (4 * (4 * j + i), .float) ∧
      (mat2x4s c).scalarAt [.field "raw", .index j, .index i] = some (4 * (4 * j + i), .float) ∧
      (mat2x4s c).scalarAt [.field "col", .index j, .field "raw", .index i] = some (4 * (4 * j + i), .float) := by
  rcases c with ⟨_ | _, _ | _, _ | _, _ | _⟩ <;> decide +kernel

/-- member names of `mat2x4s` -/
theorem C80_mat2x4s_names (c : Config) (h : c.anon = true) :
    (mat2x4s c).scalarAt [.field "m00"] = some (0, .float) ∧
    (mat2x4s c).scalarAt [.field "m01"] = some (4, .float) ∧
    (mat2x4s c).scalarAt [.field "m02"] = some (8, .float) ∧
    (mat2x4s c).scalarAt [.field "m03"] = some (12, .float) ∧
    (mat2x4s c).scalarAt [.field "m10"] = some (16, .float) ∧
    (mat2x4s c).scalarAt [.field "m11"] = some (20, .float) ∧
    (mat2x4s c).scalarAt [.field "m12"] = some (24, .float) ∧
    (mat2x4s c).scalarAt [.field "m13"] = some (28, .float) := by
  rcases c with ⟨_ | _, _ | _, _ | _, _ | _⟩ <;> first | (exact absurd h (by decide)) | decide +kernel

/-- `mat3` and `mat3s`: 3 columns of 3 -/
theorem C80_mat3 (c : Config) :
    (mat3 c).size = 36 ∧ (mat3s c).size = 36 ∧ (mat3s c).align = (mat3 c).align ∧
    ∀ j < 3, ∀ i < 3, (mat3 c).scalarAt [.index j, .index i] = some (4 * (3 * j + i), .float) ∧
      (mat3s c).scalarAt [.field "raw", .index j, .index i] = some (4 * (3 * j + i), .float) ∧
      (mat3s c).scalarAt [.field "col", .index j, .field "raw", .index i] = some (4 * (3 * j + i), .float) := by
  rcases c with ⟨_ | _, _ | _, _ | _, _ | _⟩ <;> decide +kernel

/-- member names of `mat3s` -/
theorem C80_mat3s_names (c : Config) (h : c.anon = true) :
    (mat3s c).scalarAt [.field "m00"] = some (0, .float) ∧
    (mat3s c).scalarAt [.field "m01"] = some (4, .float) ∧
    (mat3s c).scalarAt [.field "m02"] = some (8, .float) ∧
    (mat3s c).scalarAt [.field "m10"] = some (12, .float) ∧
    (mat3s c).scalarAt [.field "m11"] = some (16, .float) ∧
    (mat3s c).scalarAt [.field "m12"] = some (20, .float) ∧
    (mat3s c).scalarAt [.field "m20"] = some (24, .float) ∧
    (mat3s c).scalarAt [.field "m21"] = some (28, .float) ∧
    (mat3s c).scalarAt [.field "m22"] = some (32, .float) := by
  rcases c with ⟨_ | _, _ | _, _ | _, _ | _⟩ <;> first | (exact absurd h (by decide)) | decide +kernel

/-- `mat3x2` and `mat3x2s`: 3 columns of 2 -/
theorem C80_mat3x2 (c : Config) :
    (mat3x2 c).size = 24 ∧ (mat3x2s c).size = 24 ∧ (mat3x2s c).align = (mat3x2 c).align ∧
    ∀ j < 3, ∀ i < 2, (mat3x2 c).scalarAt [.index j, .index i] = some (4 * (2 * j + i), .float) ∧
      (mat3x2s c).scalarAt [.field "raw", .index j, .index i] = some (4 * (2 * j + i), .float) ∧
      (mat3x2s c).scalarAt [.field "col", .index j, .field "raw", .index i] = some (4 * (2 * j + i), .float) := by
  rcases c with ⟨_ | _, _ | _, _ | _, _ | _⟩ <;> decide +kernel

/-- member names of `mat3x2s` -/
theorem C80_mat3x2s_names (c : Config) (h : c.anon = true) :
    (mat3x2s c).scalarAt [.field "m00"] = some (0, .float) ∧
    (mat3x2s c).scalarAt [.field "m01"] = some (4, .float) ∧
    (mat3x2s c).scalarAt [.field "m10"] = some (8, .float) ∧
    (mat3x2s c).scalarAt [.field "m11"] = some (12, .float) ∧
    (mat3x2s c).scalarAt [.field "m20"] = some (16, .float) ∧
    (mat3x2s c).scalarAt [.field "m21"] = some (20, .float) := by
  rcases c with ⟨_ | _, _ | _, _ | _, _ | _⟩ <;> first | (exact absurd h (by decide)) | decide +kernel

/-- `mat3x4` and `mat3x4s`: 3 columns of 4 -/
theorem C80_mat3x4 (c : Config) :
    (mat3x4 c).size = 48 ∧ (mat3x4s c).size = 48 ∧ (mat3x4s c).align = (mat3x4 c).align ∧
    ∀ j < 3, ∀ i < 4, (mat3x4 c).scalarAt [.index j, .index i] = some (4 * (4 * j + i), .float) ∧
      (mat3x4s c).scalarAt [.field "raw", .index j, .index i] = some (4 * (4 * j + i), .float) ∧
      (mat3x4s c).scalarAt [.field "col", .index j, .field "raw", .index i] = some (4 * (4 * j + i), .float) := by
  rcases c with ⟨_ | _, _ | _, _ | _, _ | _⟩ <;> decide +kernel

/-- member names of `mat3x4s` -/
theorem C80_mat3x4s_names (c : Config) (h : c.anon = true) :
    (mat3x4s c).scalarAt [.field "m00"] = some (0, .float) ∧
    (mat3x4s c).scalarAt [.field "m01"] = some (4, .float) ∧
    (mat3x4s c).scalarAt [.field "m02"] = some (8, .float) ∧
    (mat3x4s c).scalarAt [.field "m03"] = some (12, .float) ∧
    (mat3x4s c).scalarAt [.field "m10"] = some (16, .float) ∧
    (mat3x4s c).scalarAt [.field "m11"] = some (20, .float) ∧
    (mat3x4s c).scalarAt [.field "m12"] = some (24, .float) ∧
    (mat3x4s c).scalarAt [.field "m13"] = some (28, .float) ∧
    (mat3x4s c).scalarAt [.field "m20"] = some (32, .float) ∧
    (mat3x4s c).scalarAt [.field "m21"] = some (36, .float) ∧
    (mat3x4s c).scalarAt [.field "m22"] = some (40, .float) ∧
    (mat3x4s c).scalarAt [.field "m23"] = some (44, .float) := by
  rcases c with ⟨_ | _, _ | _, _ | _, _ | _⟩ <;> first | (exact absurd h (by decide)) | decide +kernel

/-- `mat4` and `mat4s`: 4 columns of 4 -/
theorem C80_mat4 (c : Config) :
    (mat4 c).size = 64 ∧ (mat4s c).size = 64 ∧ (mat4s c).align = (mat4 c).align ∧
    ∀ j < 4, ∀ i < 4, (mat4 c).scalarAt [.index j, .index i] = some (4 * (4 * j + i), .float) ∧
      (mat4s c).scalarAt [.field "raw", .index j, .index i] = some (4 * (4 * j + i), .float) ∧
      (mat4s c).scalarAt [.field "col", .index j, .field "raw", .index i] = some (4 * (4 * j + i), .float) := by
  rcases c with ⟨_ | _, _ | _, _ | _, _ | _⟩ <;> decide +kernel

/-- member names of `mat4s` -/
theorem C80_mat4s_names (c : Config) (h : c.anon = true) :
    (mat4s c).scalarAt [.field "m00"] = some (0, .float) ∧
    (mat4s c).scalarAt [.field "m01"] = some (4, .float) ∧
    (mat4s c).scalarAt [.field "m02"] = some (8, .float) ∧
    (mat4s c).scalarAt [.field "m03"] = some (12, .float) ∧
    (mat4s c).scalarAt [.field "m10"] = some (16, .float) ∧
    (mat4s c).scalarAt [.field "m11"] = some (20, .float) ∧
    (mat4s c).scalarAt [.field "m12"] = some (24, .float) ∧
    (mat4s c).scalarAt [.field "m13"] = some (28, .float) ∧
    (mat4s c).scalarAt [.field "m20"] = some (32, .float) ∧
    (mat4s c).scalarAt [.field "m21"] = some (36, .float) ∧
    (mat4s c).scalarAt [.field "m22"] = some (40, .float) ∧
    (mat4s c).scalarAt [.field "m23"] = some (44, .float) ∧
    (mat4s c).scalarAt [.field "m30"] = some (48, .float) ∧
    (mat4s c).scalarAt [.field "m31"] = some (52, .float) ∧
    (mat4s c).scalarAt [.field "m32"] = some (56, .float) ∧
    (mat4s c).scalarAt [.field "m33"] = some (60, .float) := by
  rcases c with ⟨_ | _, _ | _, _ | _, _ | _⟩ <;> first | (exact absurd h (by decide)) | decide +kernel

/-- `mat4x2` and `mat4x2s`: 4 columns of 2 -/
theorem C80_mat4x2 (c : Config) :
    (mat4x2 c).size = 32 ∧ (mat4x2s c).size = 32 ∧ (mat4x2s c).align = (mat4x2 c).align ∧
    ∀ j < 4, ∀ i < 2, (mat4x2 c).scalarAt [.index j, .index i] = some (4 * (2 * j + i), .float) ∧
      (mat4x2s c).scalarAt [.field "raw", .index j, .index i] = some (4 * (2 * j + i), .float) ∧
      (mat4x2s c).scalarAt [.field "col", .index j, .field "raw", .index i] = some (4 * (2 * j + i), .float) := by
  rcases c with ⟨_ | _, _ | _, _ | _, _ | _⟩ <;> decide +kernel

/-- member names of `mat4x2s` -/
theorem C80_mat4x2s_names (c : Config) (h : c.anon = true) :
    (mat4x2s c).scalarAt [.field "m00"] = some (0, .float) ∧
    (mat4x2s c).scalarAt [.field "m01"] = some (4, .float) ∧
    (mat4x2s c).scalarAt [.field "m10"] = some (8, .float) ∧
    (mat4x2s c).scalarAt [.field "m11"] = some (12, .float) ∧
    (mat4x2s c).scalarAt [.field "m20"] = some (16, .float) ∧
    (mat4x2s c).scalarAt [.field "m21"] = some (20, .float) ∧
    (mat4x2s c).scalarAt [.field "m30"] = some (24, .float) ∧
    (mat4x2s c).scalarAt [.field "m31"] = some (28, .float) := by
  rcases c with ⟨_ | _, _ | _, _ | _, _ | _⟩ <;> first | (exact absurd h (by decide)) | decide +kernel

/-- `mat4x3` and `mat4x3s`: 4 columns of 3 -/
theorem C80_mat4x3 (c : Config) :
    (mat4x3 c).size = 48 ∧ (mat4x3s c).size = 48 ∧ (mat4x3s c).align = (mat4x3 c).align ∧
    ∀ j < 4, ∀ i < 3, (mat4x3 c).scalarAt [.index j, .index i] = some (4 * (3 * j + i), .float) ∧
      (mat4x3s c).scalarAt [.field "raw", .index j, .index i] = some (4 * (3 * j + i), .float) ∧
      (mat4x3s c).scalarAt [.field "col", .index j, .field "raw", .index i] = some (4 * (3 * j + i), .float) := by
  rcases c with ⟨_ | _, _ | _, _ | _, _ | _⟩ <;> decide +kernel

/-- member names of `mat4x3s` -/
theorem C80_mat4x3s_names (c : Config) (h : c.anon = true) :
    (mat4x3s c).scalarAt [.field "m00"] = some (0, .float) ∧
    (mat4x3s c).scalarAt [.field "m01"] = some (4, .float) ∧
    (mat4x3s c).scalarAt [.field "m02"] = some (8, .float) ∧
    (mat4x3s c).scalarAt [.field "m10"] = some (12, .float) ∧
    (mat4x3s c).scalarAt [.field "m11"] = some (16, .float) ∧
    (mat4x3s c).scalarAt [.field "m12"] = some (20, .float) ∧
    (mat4x3s c).scalarAt [.field "m20"] = some (24, .float) ∧
    (mat4x3s c).scalarAt [.field "m21"] = some (28, .float) ∧
    (mat4x3s c).scalarAt [.field "m22"] = some (32, .float) ∧
    (mat4x3s c).scalarAt [.field "m30"] = some (36, .float) ∧
    (mat4x3s c).scalarAt [.field "m31"] = some (40, .float) ∧
    (mat4x3s c).scalarAt [.field "m32"] = some (44, .float) := by
  rcases c with ⟨_ | _, _ | _, _ | _, _ | _⟩ <;> first | (exact absurd h (by decide)) | decide +kernel

end Cglm.Layout
