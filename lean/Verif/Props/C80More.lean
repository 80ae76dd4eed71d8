import Verif.Props.C80
import Verif.LayoutLemmas
/-!
# C80: alignment and containment in any object holding cglm types

Whatever structures and arrays a program builds from the library's types, every part is inside its object and is aligned when the
object is; arrays of vectors and matrices are contiguous, for every length; the switch for anonymous structures changes neither
size nor alignment nor place.
-/
open Cglm.Layout
namespace Cglm.Layout

/-- the types of types.h and types-struct.h -/
def libraryTypes (c : Config) : List CTy :=
  [ivec2 c, ivec3 c, ivec4 c, vec2 c, vec3 c, vec4 c, versor c, mat3 c, mat3x2 c, mat3x4 c, mat2 c, mat2x3 c, mat2x4 c, mat4 c,
    mat4x2 c, mat4x3 c, vec2s c, vec3s c, ivec2s c, ivec3s c, ivec4s c, vec4s c, versors c, mat2s c, mat2x3s c, mat2x4s c, mat3s c,
    mat3x2s c, mat3x4s c, mat4s c, mat4x2s c, mat4x3s c]

mutual
/-- a type made from the library's types and scalars by arrays, structures and unions -/
inductive UserTy (c : Config) : CTy → Prop
  | scalar (s) : UserTy c (.scalar s)
  | lib {t} : t ∈ libraryTypes c → UserTy c t
  | arr (n) {t} : UserTy c t → UserTy c (.arr n t)
  | struct {fs} : UserMembers c fs → UserTy c (.struct fs)
  | union {fs} : UserMembers c fs → UserTy c (.union fs)
/-- all members have such types -/
inductive UserMembers (c : Config) : Members → Prop
  | nil : UserMembers c .nil
  | cons (f) {t r} : UserTy c t → UserMembers c r → UserMembers c (.cons f t r)
end

mutual
/-- a check for `CTy.Ok` -/
def CTy.okb : CTy → Bool
  | .scalar _ => true
  | .arr _ t => t.okb
  | .struct fs => fs.okb
  | .union fs => fs.okb
  | .alignedTypedef a t => (a == 16 || a == 32) && t.okb && t.size % a == 0
  | .alignedUnion a fs => (a == 16 || a == 32) && fs.okb
/-- a check for `Members.Ok` -/
def Members.okb : Members → Bool
  | .nil => true
  | .cons _ t r => t.okb && r.okb
end

theorem pow2_of {a : Nat} (h : (a == 16 || a == 32) = true) : Pow2 a := by
  rcases Bool.or_eq_true _ _ ▸ h with h | h
  · exact ⟨4, by simpa using h⟩
  · exact ⟨5, by simpa using h⟩

mutual
theorem CTy.ok_of : {t : CTy} → t.okb = true → t.Ok
  | .scalar _, _ => trivial
  | .arr _ t, h => CTy.ok_of (t := t) h
  | .struct fs, h => Members.ok_of (fs := fs) h
  | .union fs, h => Members.ok_of (fs := fs) h
  | .alignedTypedef a t, h => by
    simp only [CTy.okb, Bool.and_eq_true] at h
    exact ⟨pow2_of h.1.1, CTy.ok_of h.1.2, Nat.dvd_of_mod_eq_zero (by simpa using h.2)⟩
  | .alignedUnion a fs, h => by
    simp only [CTy.okb, Bool.and_eq_true] at h
    exact ⟨pow2_of h.1, Members.ok_of h.2⟩
theorem Members.ok_of : {fs : Members} → fs.okb = true → fs.Ok
  | .nil, _ => trivial
  | .cons _ t r, h => by
    simp only [Members.okb, Bool.and_eq_true] at h
    exact ⟨CTy.ok_of h.1, Members.ok_of h.2⟩
end

theorem library_okb (c : Config) : (libraryTypes c).all CTy.okb = true := by
  rcases c with ⟨_ | _, _ | _, _ | _, _ | _⟩ <;> decide +kernel

mutual
theorem UserTy.ok {c : Config} : {t : CTy} → UserTy c t → t.Ok
  | _, .scalar _ => trivial
  | _, .lib h => CTy.ok_of (List.all_eq_true.mp (library_okb c) _ h)
  | .arr _ t, .arr _ h => UserTy.ok (t := t) h
  | _, .struct h => UserMembers.ok h
  | _, .union h => UserMembers.ok h
theorem UserMembers.ok {c : Config} : {fs : Members} → UserMembers c fs → fs.Ok
  | _, .nil => trivial
  | _, .cons _ h k => ⟨UserTy.ok h, UserMembers.ok k⟩
end

/-- every part of every object is inside it, and stands at a multiple of its own alignment when the object does -/
theorem C80_part_inside (c : Config) {t u : CTy} {p : List Sel} {o : Nat} (ht : UserTy c t) (h : t.part p = some (o, u)) :
    o + u.size ≤ t.size ∧ ∀ addr, t.align ∣ addr → u.align ∣ addr + o := by
  obtain ⟨-, -, h3, h4, h5⟩ := ht.ok.part p h
  exact ⟨h3, fun _ ha => Nat.dvd_add (h5.trans ha) h4⟩

/-- the size is a multiple of the alignment -/
theorem C80_align_dvd_size (c : Config) {t : CTy} (ht : UserTy c t) : t.align ∣ t.size := ht.ok.dvd_size

/-- element `k` of an array: every scalar of it stands `k` element sizes behind its place in a lone object -/
theorem C80_array (t : CTy) (n k : Nat) (hk : k < n) (p : List Sel) (o : Nat) (s : Scalar) (h : t.scalarAt p = some (o, s)) :
    (CTy.arr n t).scalarAt (.index k :: p) = some (k * t.size + o, s) := by
  unfold CTy.scalarAt at h ⊢
  simp only [CTy.part, CTy.step, if_pos hk]
  revert h
  generalize t.part p = r
  intro h
  split at h
  · cases h; rfl
  · cases h

/-- arrays of `vec3` and of `vec3s` of any length are plain sequences of floats (`glVertexAttribPointer` with stride 12) -/
theorem C80_vec3_array (c : Config) (n k i : Nat) (hk : k < n) (hi : i < 3) :
    (CTy.arr n (vec3 c)).scalarAt [.index k, .index i] = some (4 * (3 * k + i), .float) ∧
    (CTy.arr n (vec3s c)).scalarAt [.index k, .field "raw", .index i] = some (4 * (3 * k + i), .float) ∧
    (CTy.arr n (vec3 c)).size = 12 * n ∧ (CTy.arr n (vec3s c)).size = 12 * n := by
  obtain ⟨s1, s2, -, hs⟩ := C80_vec3 c
  obtain ⟨h1, h2⟩ := hs i hi
  refine ⟨?_, ?_, ?_, ?_⟩
  · rw [C80_array _ n k hk _ _ _ h1, s1]; congr 2; ring
  · rw [C80_array _ n k hk _ _ _ h2, s2]; congr 2; ring
  · simp only [CTy.size, s1]; ring
  · simp only [CTy.size, s2]; ring

/-- arrays of `mat4` and of `mat4s` of any length are plain sequences of floats: `glUniformMatrix4fv(loc, n, GL_FALSE, m[0][0])`
and `glm_mat4_mulN` see the same floats -/
theorem C80_mat4_array (c : Config) (n k j i : Nat) (hk : k < n) (hj : j < 4) (hi : i < 4) :
    (CTy.arr n (mat4 c)).scalarAt [.index k, .index j, .index i] = some (4 * (16 * k + 4 * j + i), .float) ∧
    (CTy.arr n (mat4s c)).scalarAt [.index k, .field "raw", .index j, .index i] = some (4 * (16 * k + 4 * j + i), .float) ∧
    (CTy.arr n (mat4 c)).size = 64 * n ∧ (CTy.arr n (mat4s c)).size = 64 * n := by
  obtain ⟨s1, s2, -, hs⟩ := C80_mat4 c
  obtain ⟨h1, h2, -⟩ := hs j hj i hi
  refine ⟨?_, ?_, ?_, ?_⟩
  · rw [C80_array _ n k hk _ _ _ h1, s1]; congr 2; ring
  · rw [C80_array _ n k hk _ _ _ h2, s2]; congr 2; ring
  · simp only [CTy.size, s1]; ring
  · simp only [CTy.size, s2]; ring

/-- the alignment each type asks for -/
theorem C80_align (c : Config) (h : c.Valid) :
    (vec4 c).align = (if c.allUnaligned then 4 else 16) ∧ (vec4s c).align = (vec4 c).align ∧
    (versor c).align = (vec4 c).align ∧ (versors c).align = (vec4 c).align ∧
    (mat2 c).align = (if c.allUnaligned then 4 else 16) ∧ (mat2s c).align = (mat2 c).align ∧
    (mat4 c).align = (if c.attr then if c.avx then 32 else 16 else 4) ∧ (mat4s c).align = (mat4 c).align ∧
    (vec2 c).align = 4 ∧ (vec3 c).align = 4 ∧ (mat3 c).align = 4 := by
  revert h; rcases c with ⟨_ | _, _ | _, _ | _, _ | _⟩ <;> decide +kernel

/-- the columns of an aligned `mat4` can be passed as `vec4` -/
theorem C80_mat4_columns (c : Config) (j : Nat) (hj : j < 4) (addr : Nat) (ha : (mat4 c).align ∣ addr) :
    (mat4 c).part [.index j] = some (16 * j, vec4 c) ∧ (vec4 c).align ∣ addr + 16 * j := by
  have hp : (mat4 c).part [.index j] = some (16 * j, vec4 c) := by
    have : j = 0 ∨ j = 1 ∨ j = 2 ∨ j = 3 := by omega
    rcases this with rfl | rfl | rfl | rfl <;> rcases c with ⟨_ | _, _ | _, _ | _, _ | _⟩ <;> rfl
  exact ⟨hp, (C80_part_inside c (.lib (by simp [libraryTypes])) hp).2 addr ha⟩

/-- sizes do not depend on the configuration -/
theorem C80_size_any_config (c d : Config) : (libraryTypes c).map CTy.size = (libraryTypes d).map CTy.size := by
  have key : ∀ c : Config, (libraryTypes c).map CTy.size =
      (libraryTypes ⟨true, false, false, true⟩).map CTy.size := by
    intro c; rcases c with ⟨_ | _, _ | _, _ | _, _ | _⟩ <;> decide +kernel
  rw [key c, key d]

/-- a library built with anonymous structures and a program built without them (types-struct.h:13-19): same sizes and alignments -/
theorem C80_anon_compatible (c : Config) (b : Bool) :
    (libraryTypes { c with anon := b }).map CTy.size = (libraryTypes c).map CTy.size ∧
    (libraryTypes { c with anon := b }).map CTy.align = (libraryTypes c).map CTy.align := by
  rcases c with ⟨_ | _, _ | _, _ | _, _ | _⟩ <;> rcases b with _ | _ <;> decide +kernel

/-- two member lists with the same names, sizes and alignments -/
inductive SameLayout : Members → Members → Prop
  | nil : SameLayout .nil .nil
  | cons (f : String) {t u r s} : f ≠ "" → t.size = u.size → t.align = u.align → SameLayout r s →
      SameLayout (.cons f t r) (.cons f u s)

theorem SameLayout.align : {r s : Members} → SameLayout r s → r.align = s.align
  | _, _, .nil => rfl
  | _, _, .cons _ _ _ h k => by simp only [Members.align, h, k.align]

theorem SameLayout.endAt : {r s : Members} → SameLayout r s → ∀ o, r.endAt o = s.endAt o
  | _, _, .nil, _ => rfl
  | _, _, .cons _ _ z h k, o => by simp only [Members.endAt, z, h, k.endAt]

theorem SameLayout.offset {f : String} : {r s : Members} → SameLayout r s → ∀ o,
    (r.inStruct f o).map Prod.fst = (s.inStruct f o).map Prod.fst
  | _, _, .nil, _ => rfl
  | _, _, .cons g hg z h k, o => by
    simp only [Members.inStruct, h, z, if_neg hg]
    split
    · rfl
    · exact k.offset _

/-- so a program's structures have the same members at the same places in both settings -/
theorem C80_same_layout_struct {r s : Members} (h : SameLayout r s) (f : String) :
    (CTy.struct r).size = (CTy.struct s).size ∧ (CTy.struct r).align = (CTy.struct s).align ∧
    ((CTy.struct r).step (.field f)).map Prod.fst = ((CTy.struct s).step (.field f)).map Prod.fst := by
  refine ⟨?_, h.align, h.offset 0⟩
  simp only [CTy.size, h.align, h.endAt]

/-- `struct { float t; mat4 m; }` -/
def withMat4 (c : Config) : CTy := .struct (.cons "t" (.scalar .float) (.cons "m" (mat4 c) .nil))

/-- with AVX enabled in only one of two parts of a program, they disagree on where a `mat4` member is -/
theorem C80_avx_incompatible (c : Config) (h : c.attr = true) :
    ((withMat4 { c with avx := true }).step (.field "m")).map Prod.fst = some 32 ∧
    ((withMat4 { c with avx := false }).step (.field "m")).map Prod.fst = some 16 ∧
    (withMat4 { c with avx := true }).size = 96 ∧ (withMat4 { c with avx := false }).size = 80 := by
  revert h; rcases c with ⟨_ | _, _ | _, _ | _, _ | _⟩ <;> decide +kernel

/-- with `CGLM_ALL_UNALIGNED`, every type except `mat4` and `mat4s` can stand wherever a float can -/
theorem C80_all_unaligned_partial (c : Config) (h : c.allUnaligned = true) (t : CTy) (ht : t ∈ libraryTypes c)
    (hm : t ≠ mat4 c) (hs : t ≠ mat4s c) : t.align = 4 := by
  have key : ∀ c : Config, c.allUnaligned = true →
      ((libraryTypes c).take 13).all (fun t => t.align == 4) = true ∧
      (((libraryTypes c).drop 14).take 15).all (fun t => t.align == 4) = true ∧
      ((libraryTypes c).drop 30).all (fun t => t.align == 4) = true := by
    intro c; rcases c with ⟨_ | _, _ | _, _ | _, _ | _⟩ <;> decide +kernel
  obtain ⟨k1, k2, k3⟩ := key c h
  have split : libraryTypes c = (libraryTypes c).take 13 ++ [mat4 c] ++ ((libraryTypes c).drop 14).take 15 ++ [mat4s c] ++
      (libraryTypes c).drop 30 := rfl
  rw [split] at ht
  simp only [List.mem_append, List.mem_singleton] at ht
  rcases ht with (((ht | ht) | ht) | ht) | ht
  · simpa using List.all_eq_true.mp k1 t ht
  · exact absurd ht hm
  · simpa using List.all_eq_true.mp k2 t ht
  · exact absurd ht hs
  · simpa using List.all_eq_true.mp k3 t ht

/-- `CGLM_ALL_UNALIGNED` does not relax `mat4` (types.h:34-38, 91 use `CGLM_ALIGN_MAT`, which ignores it) -/
theorem C80_all_unaligned_fails :
    ¬ ∀ c : Config, c.Valid → c.allUnaligned = true → (mat4 c).align = 4 ∧ (mat4s c).align = 4 := by
  intro h
  have := h ⟨true, true, false, true⟩ (by decide) rfl
  revert this
  decide +kernel

-- a program's own type: `struct { mat4 world[2]; vec3 at; versors turn; }`
example (c : Config) : UserTy c (.struct (.cons "world" (.arr 2 (mat4 c)) (.cons "at" (vec3 c) (.cons "turn" (versors c) .nil)))) :=
  .struct (.cons _ (.arr 2 (.lib (by simp [libraryTypes]))) (.cons _ (.lib (by simp [libraryTypes]))
    (.cons _ (.lib (by simp [libraryTypes])) .nil)))
-- its member `turn` is at 144 in the usual configuration (128 + 12, padded), and the whole takes 160 bytes
example : ((CTy.struct (.cons "world" (.arr 2 (mat4 ⟨true, false, false, true⟩)) (.cons "at" (vec3 ⟨true, false, false, true⟩)
    (.cons "turn" (versors ⟨true, false, false, true⟩) .nil)))).step (.field "turn")).map Prod.fst = some 144 := by decide +kernel
example : (⟨true, false, true, true⟩ : Config).Valid := by decide
example (c : Config) : SameLayout (.cons "t" (.scalar .float) (.cons "m" (mat4 { c with anon := true }) .nil))
    (.cons "t" (.scalar .float) (.cons "m" (mat4 { c with anon := false }) .nil)) :=
  .cons _ (by decide) rfl rfl (.cons _ (by decide) rfl rfl .nil)

end Cglm.Layout
