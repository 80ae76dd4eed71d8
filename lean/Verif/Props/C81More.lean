import Verif.Props.C81
/-!
# C81: the objects behind the parameters are the types of C80; one case in full; the promises that fail
-/
namespace Cglm.Acc
open Cglm.Layout (Config CTy)

/-- sizes and alignments used for the library's types are those of the layout model (C80), in every configuration -/
theorem C81_types (c : Config) :
    ([(Layout.vec2 c, ⟨8, []⟩), (Layout.vec3 c, ⟨12, []⟩), (Layout.vec4 c, ⟨16, [.vec]⟩), (Layout.versor c, ⟨16, [.vec]⟩),
      (Layout.ivec2 c, ⟨8, []⟩), (Layout.ivec3 c, ⟨12, []⟩), (Layout.ivec4 c, ⟨16, []⟩), (Layout.mat2 c, ⟨16, [.vec]⟩),
      (Layout.mat2x3 c, ⟨24, []⟩), (Layout.mat2x4 c, ⟨32, [.vec]⟩), (Layout.mat3 c, ⟨36, []⟩), (Layout.mat3x2 c, ⟨24, []⟩),
      (Layout.mat3x4 c, ⟨48, [.vec]⟩), (Layout.mat4 c, ⟨64, [.mat, .vec]⟩), (Layout.mat4x2 c, ⟨32, []⟩), (Layout.mat4x3 c, ⟨48, []⟩),
      (Layout.vec4s c, ⟨16, [.vec]⟩), (Layout.versors c, ⟨16, [.vec]⟩), (Layout.mat2s c, ⟨16, [.vec]⟩),
      (Layout.mat3s c, ⟨36, []⟩), (Layout.mat4s c, ⟨64, [.mat, .vec]⟩)] : List (CTy × Var)).all
      (fun x => x.1.size == x.2.size && x.1.align == x.2.align (aln c)) = true := by
  rcases c with ⟨_ | _, _ | _, _ | _, _ | _⟩ <;> decide +kernel

/-- `glm_mat4_mul` -/
abbrev mat4Mul : Nat := 376
/-- `glm_rotate_at` -/
abbrev rotateAt : Nat := 493

/-- a 64-byte object at `x` -/
def block (x : Nat) (out : Bool) : Ptr := ⟨⟨x, 64, out, false⟩, x⟩

/-- one case in full: the AVX build of `glm_mat4_mul` on matrices at multiples of 32 touches only the three matrices, in aligned
pieces, and writes only the third -/
theorem C81_mat4_mul_avx (x y z : Nat) (hx : 32 ∣ x) (hy : 32 ∣ y) (hz : 32 ∣ z) (t : Touch)
    (h : Touches ⟨true, false, true⟩ progAvx mat4Mul [block x false, block y false, block z true] t) :
    t.req ∣ t.ptr.addr ∧
    (t.ptr.obj.isLocal = false →
      (x ≤ t.ptr.addr ∧ t.ptr.addr + t.width ≤ x + 64 ∧ t.write = false) ∨
      (y ≤ t.ptr.addr ∧ t.ptr.addr + t.width ≤ y + 64 ∧ t.write = false) ∨ (z ≤ t.ptr.addr ∧ t.ptr.addr + t.width ≤ z + 64)) := by
  obtain ⟨g, ho⟩ := C81_Avx_partial ⟨true, false, true, true⟩ (by decide) rfl rfl mat4Mul
    [⟨⟨64, [.mat, .vec]⟩, false⟩, ⟨⟨64, [.mat, .vec]⟩, false⟩, ⟨⟨64, [.mat, .vec]⟩, true⟩] _ t (by decide) (by decide +kernel)
    (.cons ⟨le_rfl, le_rfl, hx, nofun⟩ (.cons ⟨le_rfl, le_rfl, hy, nofun⟩ (.cons ⟨le_rfl, le_rfl, hz, fun _ => rfl⟩ .nil))) h
  refine ⟨g.aligned, fun hl => ?_⟩
  rcases ho with ho | ho
  · have g1 := g.first; have g2 := g.last; have g4 := g.output
    simp only [List.map_cons, List.map_nil, List.mem_cons, List.not_mem_nil, or_false] at ho
    rcases ho with ho | ho | ho <;> rw [ho] at g1 g2 g4 <;> simp only [block] at g1 g2 g4
    · exact .inl ⟨g1, g2, by cases e : t.write; rfl; exact absurd (g4 e) (by decide)⟩
    · exact .inr (.inl ⟨g1, g2, by cases e : t.write; rfl; exact absurd (g4 e) (by decide)⟩)
    · exact .inr (.inr ⟨g1, g2⟩)
  · rw [ho] at hl; cases hl

/-- the build without AVX asks for less: 16 is enough there, and not here -/
theorem C81_mat4_mul_needs_32 : ∃ t, Touches ⟨true, false, true⟩ progAvx mat4Mul [block 16 false, block 80 false, block 144 true] t ∧
    ¬ t.Good := by
  refine ⟨⟨⟨⟨144, 64, true, false⟩, 144⟩, 32, 32, true⟩, ?_, fun g => by have := g.aligned; revert this; decide⟩
  refine .call (fn := v2_glm_mat4_mul) (locs := []) (ps := [⟨0, 0, []⟩, ⟨1, 0, []⟩, ⟨2, 0, []⟩])
    (qs := [block 16 false, block 80 false, block 144 true]) rfl .nil (List.mem_cons_self ..) ?_ ?_
  · exact .cons ⟨_, 0, rfl, .nil, rfl⟩ (.cons ⟨_, 0, rfl, .nil, rfl⟩ (.cons ⟨_, 0, rfl, .nil, rfl⟩ .nil))
  · exact .access (fn := v1_glm_mat4_mul_avx) (locs := []) (p := ⟨2, 0, []⟩) rfl .nil (by simp [v1_glm_mat4_mul_avx]) ⟨_, 0, rfl, .nil, rfl⟩

/-- `glmm_load3` promises the compiler an alignment of 16 for a vector that has 4 -/
theorem C81_load3_fails : ¬ AllGood ⟨true, false, false⟩ progSse2 [] := by
  intro h
  have := (h loadThree [⟨⟨12, []⟩, false⟩] [⟨⟨4, 12, false, false⟩, 4⟩] ⟨⟨⟨4, 12, false, false⟩, 4⟩, 0, 16, false⟩ (by decide) (by decide +kernel)
    (.cons ⟨le_rfl, le_rfl, by decide, nofun⟩ .nil)
    (.access (fn := v1_glmm_load3) (locs := []) (p := ⟨0, 0, []⟩) rfl .nil (by simp [v1_glmm_load3, ac]) ⟨_, 0, rfl, .nil, rfl⟩)).1.aligned
  revert this; decide

/-- `glmm_store3` promises 8 -/
theorem C81_store3_fails : ∃ t, Touches ⟨true, false, false⟩ progSse2 storeThree [⟨⟨4, 12, true, false⟩, 4⟩] t ∧ ¬ t.Good :=
  ⟨⟨⟨⟨4, 12, true, false⟩, 4⟩, 0, 8, false⟩,
    .access (fn := v1_glmm_store3) (locs := []) (p := ⟨0, 0, []⟩) rfl .nil (by simp [v1_glmm_store3, ac]) ⟨_, 0, rfl, .nil, rfl⟩,
    fun g => by have := g.aligned; revert this; decide⟩

-- the parameters of `glm_mat4_mul`: two matrices read, one written
example : progAvx.sig mat4Mul = some [⟨⟨64, [.mat, .vec]⟩, false⟩, ⟨⟨64, [.mat, .vec]⟩, false⟩, ⟨⟨64, [.mat, .vec]⟩, true⟩] := by
  decide +kernel
-- of `glm_rotate_at(mat4 m, vec3 pivot, float angle, vec3 axis)`: a matrix changed, two vectors read
example : progAvx.sig rotateAt = some [⟨⟨64, [.mat, .vec]⟩, true⟩, ⟨⟨12, []⟩, false⟩, ⟨⟨12, []⟩, false⟩] := by
  decide +kernel

end Cglm.Acc
