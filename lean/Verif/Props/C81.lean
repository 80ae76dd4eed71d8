import Verif.Acc.Sigs
import Verif.Acc.Scalar
import Verif.Acc.Configs
/-!
# C81: no access is misaligned, outside its object, or a write to an input

In every build and for every function of the array, structure and compiled interfaces: when the arguments have the room and the
alignment their types ask for, each access, at any depth of calls, is inside the object it starts from, has the alignment its
instruction needs, and changes only outputs and local objects.  With `CGLM_ALL_UNALIGNED` the alignment of a float is enough.
Written by `tools/accgen.py`.
-/
namespace Cglm.Acc
open Cglm.Layout (Config)
set_option maxRecDepth 100000

/-- `glmm_load3`: include/cglm/simd/x86.h, see `v1_glmm_load3` -/
abbrev loadThree : Nat := 2298
/-- `glmm_store3`: include/cglm/simd/x86.h, see `v1_glmm_store3` -/
abbrev storeThree : Nat := 2299

/-- the scalar build -/
def progScalar : Prog := ⟨sigs, scalarFns, .leaf⟩
/-- the build Sse -/
def progSse : Prog := ⟨sigs, scalarFns, ownSse⟩
/-- the build Sse2 -/
def progSse2 : Prog := ⟨sigs, scalarFns, ownSse2⟩
/-- the build Sse3 -/
def progSse3 : Prog := ⟨sigs, scalarFns, ownSse3⟩
/-- the build Sse4 -/
def progSse4 : Prog := ⟨sigs, scalarFns, ownSse4⟩
/-- the build Avx -/
def progAvx : Prog := ⟨sigs, scalarFns, ownAvx⟩
/-- the build Fma -/
def progFma : Prog := ⟨sigs, scalarFns, ownFma⟩
/-- the build Neon64 -/
def progNeon64 : Prog := ⟨sigs, scalarFns, ownNeon64⟩
/-- the build Neon32 -/
def progNeon32 : Prog := ⟨sigs, scalarFns, ownNeon32⟩
/-- the build Wasm -/
def progWasm : Prog := ⟨sigs, scalarFns, ownWasm⟩
/-- the build SseU with `CGLM_ALL_UNALIGNED` -/
def progSseU : Prog := ⟨sigs, scalarFns, ownSseU⟩
/-- the build Sse2U with `CGLM_ALL_UNALIGNED` -/
def progSse2U : Prog := ⟨sigs, scalarFns, ownSse2U⟩
/-- the build Sse3U with `CGLM_ALL_UNALIGNED` -/
def progSse3U : Prog := ⟨sigs, scalarFns, ownSse3U⟩
/-- the build Sse4U with `CGLM_ALL_UNALIGNED` -/
def progSse4U : Prog := ⟨sigs, scalarFns, ownSse4U⟩
/-- the build AvxU with `CGLM_ALL_UNALIGNED` -/
def progAvxU : Prog := ⟨sigs, scalarFns, ownAvxU⟩
/-- the build FmaU with `CGLM_ALL_UNALIGNED` -/
def progFmaU : Prog := ⟨sigs, scalarFns, ownFmaU⟩

/-- every access made by a function is as it should be -/
def AllGood (a : Aln) (P : Prog) (bad : List Nat) : Prop :=
  ∀ (f : Nat) (vs : List Param) (args : List Ptr) (t : Touch), f ∉ bad → P.sig f = some vs → List.Forall₂ (Param.Admits a) vs args →
    Touches a P f args t → t.Good ∧ (t.ptr.obj ∈ args.map Ptr.obj ∨ t.ptr.obj.isLocal = true)

theorem scalar_ok_A16 : scalarFns.all (fnOk ⟨true, false, false⟩ [loadThree, storeThree] sigs) = true := by decide +kernel
theorem scalar_ok_A32 : scalarFns.all (fnOk ⟨true, false, true⟩ [loadThree, storeThree] sigs) = true := by decide +kernel
theorem scalar_ok_U : scalarFns.all (fnOk least [loadThree, storeThree] sigs) = true := by decide +kernel
theorem scalar_keys : scalarFns.all (fun k _ => !List.contains [loadThree, storeThree] k) = true := by decide +kernel

theorem allGood {a : Aln} {P : Prog} {bad : List Nat} (hb : P.base.all (fnOk a bad P.sigs) = true)
    (ho : P.own.all (fnOk a bad P.sigs) = true) : AllGood a P bad :=
  fun _ _ _ _ hf hs hv ht => ⟨touches_good hb ho ht hf hs hv, touches_obj ht⟩

theorem allGood_relaxed {a : Aln} (ha : a.relaxed = true) {P : Prog} {bad : List Nat} (hb : P.base.all (fnOk least bad P.sigs) = true)
    (ho : P.own.all (fnOk least bad P.sigs) = true) : AllGood a P bad :=
  fun _ _ _ _ hf hs hv ht => ⟨touches_good hb ho ht.least hf hs (hv.imp fun _ _ h => h.least ha), touches_obj ht⟩

theorem aln_aligned {c : Config} (hv : c.Valid) (hu : c.allUnaligned = false) : aln c = ⟨true, false, c.avx⟩ := by
  rcases c with ⟨_ | _, _ | _, _ | _, _ | _⟩ <;> first | rfl | exact absurd (hv rfl) (by decide) | exact absurd hu (by decide)


/-- Scalar build, with or without `CGLM_ALL_UNALIGNED` -/
theorem C81_Scalar (c : Config) (hv : c.Valid) (hx : c.avx = false) : AllGood (aln c) progScalar [] := by
  rcases hu : c.allUnaligned with _ | _
  · rw [aln_aligned hv hu, hx]; exact allGood (all_nil scalar_ok_A16 scalar_keys) rfl
  · exact allGood_relaxed hu (all_nil scalar_ok_U scalar_keys) rfl
theorem ownNeon64_ok_A16 : ownNeon64.all (fnOk ⟨true, false, false⟩ [] sigs) = true := by decide +kernel
theorem ownNeon64_ok_U : ownNeon64.all (fnOk least [] sigs) = true := by decide +kernel

/-- Neon64 build, with or without `CGLM_ALL_UNALIGNED` -/
theorem C81_Neon64 (c : Config) (hv : c.Valid) (hx : c.avx = false) : AllGood (aln c) progNeon64 [] := by
  rcases hu : c.allUnaligned with _ | _
  · rw [aln_aligned hv hu, hx]; exact allGood (all_nil scalar_ok_A16 scalar_keys) ownNeon64_ok_A16
  · exact allGood_relaxed hu (all_nil scalar_ok_U scalar_keys) ownNeon64_ok_U
theorem ownNeon32_ok_A16 : ownNeon32.all (fnOk ⟨true, false, false⟩ [] sigs) = true := by decide +kernel
theorem ownNeon32_ok_U : ownNeon32.all (fnOk least [] sigs) = true := by decide +kernel

/-- Neon32 build, with or without `CGLM_ALL_UNALIGNED` -/
theorem C81_Neon32 (c : Config) (hv : c.Valid) (hx : c.avx = false) : AllGood (aln c) progNeon32 [] := by
  rcases hu : c.allUnaligned with _ | _
  · rw [aln_aligned hv hu, hx]; exact allGood (all_nil scalar_ok_A16 scalar_keys) ownNeon32_ok_A16
  · exact allGood_relaxed hu (all_nil scalar_ok_U scalar_keys) ownNeon32_ok_U
theorem ownWasm_ok_A16 : ownWasm.all (fnOk ⟨true, false, false⟩ [] sigs) = true := by decide +kernel
theorem ownWasm_ok_U : ownWasm.all (fnOk least [] sigs) = true := by decide +kernel

/-- Wasm build, with or without `CGLM_ALL_UNALIGNED` -/
theorem C81_Wasm (c : Config) (hv : c.Valid) (hx : c.avx = false) : AllGood (aln c) progWasm [] := by
  rcases hu : c.allUnaligned with _ | _
  · rw [aln_aligned hv hu, hx]; exact allGood (all_nil scalar_ok_A16 scalar_keys) ownWasm_ok_A16
  · exact allGood_relaxed hu (all_nil scalar_ok_U scalar_keys) ownWasm_ok_U

theorem ownSse_ok_A16 : ownSse.all (fnOk ⟨true, false, false⟩ [] sigs) = true := by decide +kernel
theorem ownSseU_ok_U : ownSseU.all (fnOk least [] sigs) = true := by decide +kernel

/-- Sse build -/
theorem C81_Sse (c : Config) (hv : c.Valid) (hu : c.allUnaligned = false) (hx : c.avx = false) :
    AllGood (aln c) progSse [] := by
  rw [aln_aligned hv hu, hx]; exact allGood (all_nil scalar_ok_A16 scalar_keys) ownSse_ok_A16

/-- Sse build with `CGLM_ALL_UNALIGNED` -/
theorem C81_SseU (c : Config) (hu : c.allUnaligned = true) : AllGood (aln c) progSseU [] :=
  allGood_relaxed hu (all_nil scalar_ok_U scalar_keys) ownSseU_ok_U

theorem ownSse2_ok_A16 : ownSse2.all (fnOk ⟨true, false, false⟩ [loadThree, storeThree] sigs) = true := by decide +kernel
theorem ownSse2U_ok_U : ownSse2U.all (fnOk least [loadThree, storeThree] sigs) = true := by decide +kernel

/-- Sse2 build; missing: the two helpers that promise too much -/
theorem C81_Sse2_partial (c : Config) (hv : c.Valid) (hu : c.allUnaligned = false) (hx : c.avx = false) :
    AllGood (aln c) progSse2 [loadThree, storeThree] := by
  rw [aln_aligned hv hu, hx]; exact allGood scalar_ok_A16 ownSse2_ok_A16

/-- Sse2 build with `CGLM_ALL_UNALIGNED` -/
theorem C81_Sse2U_partial (c : Config) (hu : c.allUnaligned = true) : AllGood (aln c) progSse2U [loadThree, storeThree] :=
  allGood_relaxed hu scalar_ok_U ownSse2U_ok_U

theorem ownSse3_ok_A16 : ownSse3.all (fnOk ⟨true, false, false⟩ [loadThree, storeThree] sigs) = true := by decide +kernel
theorem ownSse3U_ok_U : ownSse3U.all (fnOk least [loadThree, storeThree] sigs) = true := by decide +kernel

/-- Sse3 build; missing: the two helpers that promise too much -/
theorem C81_Sse3_partial (c : Config) (hv : c.Valid) (hu : c.allUnaligned = false) (hx : c.avx = false) :
    AllGood (aln c) progSse3 [loadThree, storeThree] := by
  rw [aln_aligned hv hu, hx]; exact allGood scalar_ok_A16 ownSse3_ok_A16

/-- Sse3 build with `CGLM_ALL_UNALIGNED` -/
theorem C81_Sse3U_partial (c : Config) (hu : c.allUnaligned = true) : AllGood (aln c) progSse3U [loadThree, storeThree] :=
  allGood_relaxed hu scalar_ok_U ownSse3U_ok_U

theorem ownSse4_ok_A16 : ownSse4.all (fnOk ⟨true, false, false⟩ [loadThree, storeThree] sigs) = true := by decide +kernel
theorem ownSse4U_ok_U : ownSse4U.all (fnOk least [loadThree, storeThree] sigs) = true := by decide +kernel

/-- Sse4 build; missing: the two helpers that promise too much -/
theorem C81_Sse4_partial (c : Config) (hv : c.Valid) (hu : c.allUnaligned = false) (hx : c.avx = false) :
    AllGood (aln c) progSse4 [loadThree, storeThree] := by
  rw [aln_aligned hv hu, hx]; exact allGood scalar_ok_A16 ownSse4_ok_A16

/-- Sse4 build with `CGLM_ALL_UNALIGNED` -/
theorem C81_Sse4U_partial (c : Config) (hu : c.allUnaligned = true) : AllGood (aln c) progSse4U [loadThree, storeThree] :=
  allGood_relaxed hu scalar_ok_U ownSse4U_ok_U

theorem ownAvx_ok_A32 : ownAvx.all (fnOk ⟨true, false, true⟩ [loadThree, storeThree] sigs) = true := by decide +kernel
theorem ownAvxU_ok_U : ownAvxU.all (fnOk least [loadThree, storeThree] sigs) = true := by decide +kernel

/-- Avx build; missing: the two helpers that promise too much -/
theorem C81_Avx_partial (c : Config) (hv : c.Valid) (hu : c.allUnaligned = false) (hx : c.avx = true) :
    AllGood (aln c) progAvx [loadThree, storeThree] := by
  rw [aln_aligned hv hu, hx]; exact allGood scalar_ok_A32 ownAvx_ok_A32

/-- Avx build with `CGLM_ALL_UNALIGNED` -/
theorem C81_AvxU_partial (c : Config) (hu : c.allUnaligned = true) : AllGood (aln c) progAvxU [loadThree, storeThree] :=
  allGood_relaxed hu scalar_ok_U ownAvxU_ok_U

theorem ownFma_ok_A32 : ownFma.all (fnOk ⟨true, false, true⟩ [loadThree, storeThree] sigs) = true := by decide +kernel
theorem ownFmaU_ok_U : ownFmaU.all (fnOk least [loadThree, storeThree] sigs) = true := by decide +kernel

/-- Fma build; missing: the two helpers that promise too much -/
theorem C81_Fma_partial (c : Config) (hv : c.Valid) (hu : c.allUnaligned = false) (hx : c.avx = true) :
    AllGood (aln c) progFma [loadThree, storeThree] := by
  rw [aln_aligned hv hu, hx]; exact allGood scalar_ok_A32 ownFma_ok_A32

/-- Fma build with `CGLM_ALL_UNALIGNED` -/
theorem C81_FmaU_partial (c : Config) (hu : c.allUnaligned = true) : AllGood (aln c) progFmaU [loadThree, storeThree] :=
  allGood_relaxed hu scalar_ok_U ownFmaU_ok_U

end Cglm.Acc
