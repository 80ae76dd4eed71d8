# Formal model of recp/cglm in Lean 4: design

## Approach

cglm is a header-only C library of numeric functions, almost all straight-line.  The model has these layers.

1. **Scalar-generic value model** (`Verif/Gen/*`, index `Verif/Gen.lean`, 682 functions).  Every function of
   `include/cglm/*.h` becomes a Lean function over an arbitrary scalar type `α` with the C `float` operations as
   parameters (`+ - * /`, negation, comparisons, `sqrtf`, ...; class `CFloat` in `Verif/Base.lean`).  Output pointers
   become results.  Each definition cites the file and lines it models.
2. **Exact semantics**: `α := ℝ` (`Verif/Real.lean`).  Algebraic and geometric properties are stated against Mathlib
   (`Matrix`, `Quaternion`, ...) and the small specification file `Verif/Spec.lean`.
3. **Integer vectors** (`Verif/Gen/I*`, index `Verif/GenInt.lean`, 339 functions): checked 32-bit arithmetic in
   `Verif/I32.lean`; signed overflow, division by zero, `INT_MIN / -1` and out-of-range conversions are `none`.
4. **Wrappers**: the struct API `glms_*` (`Verif/Gen/Struct*`, 570 functions) and the compiled API `glmc_*`
   (`Verif/Gen/Src*`, 611 functions), each translated from its own source and compared with the inline function.
5. **Configurations**: the functions that depend on `CGLM_FORCE_DEPTH_ZERO_TO_ONE` / `CGLM_FORCE_LEFT_HANDED` are
   generated a second time under each setting (`Verif/Gen/Cfg*`).
6. **Memory model** (`Verif/CMem.lean`, `Verif/Mem/*`): the same C functions as syntax trees of a small imperative
   language run by an interpreter over addressed memory, in which an out-of-range, uninitialised or misdirected access
   is undefined behaviour (`none`).  Each function is evaluated by the kernel on a symbolic canonical memory; a
   simulation theorem (`Verif/CMemSim.lean`) transfers the result to every memory and every pointer assignment.
   `Verif/CMemX.lean` adds run-time indices and loops for the functions of layer 8 (`Verif/Mem/Hand.lean`, written by
   hand); a loop runs on a budget and the theorems hold for every budget above the trip count.  `Verif/CMemI.lean` is
   the same language with the checked 32-bit arithmetic of layer 3, for the integer-vector functions.
   `Verif/CMemSafe.lean` and `CMemISafe.lean` contain a static analysis of these trees and its soundness proof: an accepted
   function is memory safe however its arguments overlap.  `Verif/CMemLate.lean` has a second one: an accepted function
   computes the same whether or not its outputs overlap its inputs.
7. **SIMD backends** (`Verif/Simd.lean`, `Verif/Gen/Simd*`): every function whose code depends on the instruction set is
   translated again for nine configurations (SSE, SSE2, SSE3, SSE4, AVX, AVX+FMA, NEON on 64 and 32 bit Arm,
   WebAssembly).  The intrinsics are lane-level functions over the scalar type.
8. **Hand-written models** (`Verif/Hand.lean`, `Verif/HandWrap.lean`) for the functions with run-time loop bounds or
   indices: products of N matrices, swizzles, row/column swaps, identity arrays, de Casteljau, Euler order, `glm_sign`.

9. **Binary32** (`Verif/F32.lean` and `F32*.lean`): an instance of the scalar class with NaN, infinities, signed zeros,
   subnormals and round-to-nearest-even, over ℚ.  The same generated functions are evaluated in it (C64, C65, C76–C78).  `Contract.lean` evaluates
   them with the fused operations a compiler may introduce (C79).
   `F32Grid.lean` is the calculus of exact results; `F32Simd.lean` adds the fused multiply-add, minimum and maximum of the
   SIMD units, so that the functions of layer 7 can be evaluated too.  Rounding,
   monotonicity, the error of each operation and of `sqrtf` are theorems about the rounding function, not assumptions.

10. **Partial arithmetic** (`Verif/Defd.lean`): ℝ with an extra undefined value, the result of division by zero, `sqrtf` of a
   negative number and so on.  The same generated functions are evaluated in it (C72), so that a theorem over ℝ cannot be
   true only because Lean defines `x / 0 = 0`.

11. **Types in memory** (`Verif/Layout.lean`, `Verif/Types.lean`): sizes, alignments and member offsets of the types the
   headers declare (C80).

12. **Accesses** (`Verif/Access.lean`, `Verif/Acc/*`): for every function and build the list of its memory accesses with offsets,
   widths and required alignments (C81).  Simplifications: conditions are dropped (every branch counts as taken), a loop index
   ranges over its bounds, an index that is not constant is assumed in range (the caller's
   duty), an array of run-time length stands for any one of its elements, initialisers and whole-structure
   copies of locals are not listed, and a plain `float *` points to as many floats as the function uses.  Which parameters are outputs is taken
   from the `@param[out]` comments, and from the scalar code where they say nothing or are wrong (listed in `tools/accgen.py`).

13. **Threads** (`Verif/Thread.lean`, `Verif/ThreadInt.lean`, `Verif/ThreadCall.lean`, `Verif/Lib.lean`, `Verif/Lib/Int.lean`): the memory layer one access at a time, and any number of threads
   on one memory (C82).  A step is one load or store of one cell, in program order of its thread; that weaker orders give
   nothing else is the guarantee C makes for programs without races, and absence of races is part of what is proved.  Local
   variables belong to the thread.

### Tools

`tools/cfront.py` preprocesses and parses the C subset cglm uses; `tools/pure.py` emits the value model;
`tools/intpure.py` the checked integer model; `tools/gen.py` drives both; `tools/memgen.py` and `tools/imemgen.py`
emit the memory layer and the C55/C56 theorems; `tools/safethms.py` emits the C56 theorems about overlapping arguments and `Verif/Lib*`; `tools/merge.py` joins small generated modules into larger ones; `tools/wrapthms.py` and `tools/cfgthms.py` emit the C61/C62/C68 theorems;
`tools/simdgen.py` emits the SIMD models, `tools/simdthms.py` and `tools/simdexc.py` the C57-C60 theorems (each function
at the strongest level that holds: identical for every scalar type, identical up to commuting `+` and `*`, equal over ℝ);
`tools/errthms.py`, `tools/errnorm.py` and `tools/edgethms.py` emit most of C64 and C65; `tools/defdthms.py` emits C72
from the preconditions in `tools/defd_hyp.txt`; `tools/gridthms.py` emits C76 and `tools/monothms.py` the vector part of C77 and `tools/mirthms.py` part of C78; `tools/ctrthms.py` emits most of C79; `tools/layoutgen.py` emits `Types.lean` and part of C80; `tools/accgen.py` emits `Verif/Acc/*` and `Props/C81.lean`; `tools/overthms.py` and `tools/exactthms.py` emit C98 and `tools/partthms.py` C99; `tools/manifest.py` writes `Verif.lean` and `MANIFEST.json`.  All output is committed.

## Plan per property

- **C01 Matrix product is composition**: toMatrix into Mathlib Matrix; entrywise ring identity.
- **C02 Identity, zero, transpose and scale are the linear-algebra ones**: same.
- **C03 Determinant**: Matrix.det_fin_two/three, Laplace expansion for 4x4.
- **C04 Inverse**: A * inv A = 1 by field_simp/ring, then Matrix.mul_eq_one_comm.
- **C05 Product of N matrices**: fold over a list; induction on length; UB for len<2.
- **C06 Row-matrix-column form**: dotProduct/mulVec.
- **C07 Trace, row and column swaps, sub-matrix picks**: entrywise; explicit index case analysis.
- **C08 Quaternion algebra**: toQuaternion into Mathlib Quaternion ℝ.
- **C09 Quaternion to rotation matrix**: ring identities modulo |q|²=1.
- **C10 Quaternion to matrix for non-unit input**: refutation by concrete witness; partial theorem on unit/zero input.
- **C11 Rotation matrix to quaternion round trip**: branch analysis on the four cases.
- **C12 Axis-angle quaternions**: trig identities.
- **C13 Spherical interpolation**: branch analysis; refutation in the lerp fallback.
- **C14 Linear and normalized interpolation of quaternions**: algebra.
- **C15 Quaternion between two directions**: algebra on unit vectors.
- **C16 Euler angle matrices**: product of elementary rotations.
- **C17 Euler angle extraction**: arcsin/atan2 facts.
- **C18 Euler angle quaternions agree with Euler matrices**: half-angle identities.
- **C19 Affine transforms compose as documented**: Matrix products.
- **C20 Axis-angle rotation matrix**: Rodrigues form.
- **C21 Decomposition of affine transforms**: norms of columns.
- **C22 Rigid inverse**: orthogonality.
- **C23 Affine fast products**: Matrix products restricted to shape.
- **C24 Rotation about a point and spin**: conjugation by translation; refutation where the position moves.
- **C25 2D affine transforms**: Matrix products.
- **C26 View matrices**: orthonormal frame.
- **C27 Perspective projection**: interval mapping, monotone depth.
- **C28 Off-centre frustum projection**: corner mapping; refutation for LH.
- **C29 Orthographic projection**: interval mapping.
- **C30 Decomposition of a projection**: field algebra; refutation where an entry point divides by zero.
- **C31 Projection queries and updates**: field algebra.
- **C32 Project and unproject are inverse**: field algebra with inverse.
- **C33 Pick matrix**: interval mapping; size guard.
- **C34 Frustum planes**: sign equivalence.
- **C35 Frustum corners, center and box**: fold of min/max.
- **C36 Axis-aligned boxes are point sets**: set-theoretic characterisation.
- **C37 Box transform**: interval arithmetic.
- **C38 Box/frustum culling is conservative**: support-point argument.
- **C39 Box/sphere and box/circle tests are exact**: clamp argument.
- **C40 Sphere operations**: triangle inequality.
- **C41 Ray/triangle intersection**: barycentric coordinates / Cramer.  With `NULL` for the distance the answer is the same
  (`Props/C56Null.lean`).
- **C42 Ray/sphere intersection**: quadratic.
- **C43 Plane normalization**: scaling.
- **C44 Bezier, Hermite and cubic curves**: ring.
- **C45 De Casteljau solver**: loop invariant by induction on iterations plus IVT.
- **C46 Easing functions**: calculus-free monotonicity, trig/exp facts.
- **C47 Scalar utilities**: order reasoning.
- **C48 Norms and normalization**: sqrt facts.
- **C49 Dot and cross product identities**: ring.
- **C50 Rotating vectors**: trig ring.
- **C51 Projection, reflection, refraction**: algebra.
- **C52 Component-wise vector functions**: holds for every scalar type: definitional.
- **C53 Integer vectors are defined exactly when in range**: Option-valued 32-bit integer semantics, UB = none.
- **C54 Integer sign**: same.
- **C55 Destination may alias an argument**: memory-level model: C statements over an addressed memory with UB; theorem per function and aliasing pattern.
- **C56 Memory safety and framing**: same memory model, frame clause.  For arguments that overlap in any way: a static analysis of
  the syntax trees, sound by induction, evaluated by the kernel on each function.
- **C57 SSE2 backend equals scalar backend**: lane-level model of intrinsics.
- **C58 AVX backend equals scalar backend**: same.
- **C59 NEON backend equals scalar backend**: same.
- **C60 WASM SIMD backend equals scalar backend**: same.
- **C61 Struct API equals array API**: generated wrapper model; equality for every scalar type.
- **C62 Compiled-call API equals inline API**: same.
- **C63 Gradient noise vanishes on the lattice**: floor/fract facts.
- **C64 Rounding error bounds**: binary32 model over ℚ; a small calculus (`Near`) propagates a relative factor `(1+u)^k` and
  an underflow term through sums, products and square roots; a second one (`Fine`) shows that nothing overflows.
- **C65 Floating-point edge behaviour**: case analysis on the kinds of data; monotonicity of rounding; concrete witnesses
  evaluated by the kernel.
- **C66 Swizzle**: mask arithmetic; OOB = UB.
- **C67 Array initialisers**: induction on count.
- **C68 Clip-control dispatch**: model generated under each configuration.
- **C69 Luminance is a fixed linear functional**: linear.
- **C70 Quaternion look and view**: algebra.
- **C71 Noise functions are gradient noise without seams**: refinement to a sum over cell corners, written without library functions; continuity from a locally finite cover of the line by closed cells; boundedness from bounds on the gradients.
- **C72 No undefined operation is used**: every function evaluated over ℝ extended by an undefined value equals the function over ℝ; unconditionally for most, under explicit preconditions for the rest.  The preconditions are shown exact by the converse.
- **C73 View volume of a camera**: the planes, corners and box test of C34, C35 and C38 are composed with the projections of C27/C29 and the view matrices of C26.  Result: exact conditions in world space, for each handedness and depth range.  `ViewVolume.lean` has the helper lemmas.
- **C74 Histories of updates**: a history is a list of calls; `call` is the library function and `spec` what the step means for the value that the matrix, quaternion, box or projection stands for.  Refinement and invariants by induction over the list: 3D transforms (`C74`), 2D transforms (`C74Flat`), orientations (`C74Quat`), bounding volumes (`C74Box`), lenses (`C74Lens`).
- **C75 Printed text shows the value**: `Printf.lean` gives the conversions `% d`, `% .*f`, `% g` of C11 on binary32 data, `Io.lean` the functions of `io.h` as transformers of the text of a stream.  A reader that knows nothing of the printer (`Reading.lean`: lines, words, decimal numerals) is applied to the text.
- **C76 Small integers and fixed-point numbers are computed exactly**: numbers `n * 2^e` with `|n| ≤ K` form a grid (`F32Grid.lean`); each operation whose bound stays at or below 2^24 is exact, so a tree of operations is exact when its bounds are.  The fused multiply-add of the SIMD units is in `F32Simd.lean`.  Chains by induction, with the bound taken from the exact partial result.
- **C77 Order survives rounding**: `F32Mono.lean` shows each rounded operation monotone in each argument (on the order of numbers with infinities, NaN excluded); expressions follow by composition.  `F32Btw.lean` carries rational bounds for ranges and signs.  Expressions that subtract growing terms are examined one by one; where they fail a pair of inputs is given.  The following value is an induction over the steps with the exact distance to the target as the bound.
- **C78 Mirrored scenes give mirrored results**: `F32Mir.lean` defines "equal up to a sign and up to the sign of zeros" and shows that each rounded operation respects it.  `tools/mirthms.py` states the functions without branches (`C78Gen.lean`); branches, divisions, inverses, rays and histories are by hand (`C78.lean`).  Divisors that may vanish are shown never to be negative zeros, or excluded by a finite result.
- **C79 Results under any contraction a compiler may choose**: `Contract.lean` is an instance of the scalar class in which a number remembers its factors and its expression, and an arbitrary policy decides for each sum whether a product is fused into it.  The error calculus of C64 and the grids of C76 are redone for it; `tools/ctrthms.py` states them and the functions in which nothing can be fused (`tools/ctr_same.txt`); signs and refutations are by hand (`C79More.lean`).
- **C80 Where the elements are in memory**: `Layout.lean` is a model of C types with size, alignment and offsets; `tools/layoutgen.py` writes the types of types.h and types-struct.h over all settings of four switches (`Types.lean`) and the table of places (`Props/C80.lean`); containment and alignment of parts are proved by induction over all types (`C80More.lean`).
- **C81 No misaligned access, no access outside an object, no write to an input**: `tools/accgen.py` lists for each function and build the places it accesses (parameter or local, byte offset, range of indices, width, required alignment, read or write) and the calls it makes with the places passed (`Verif/Acc/*`). `Access.lean` defines what such a list can touch at run time (`Touches`, inductive, any call depth, any addresses), a checker that looks at one function at a time, and proves by induction that a program that passes touches only good places. `C81.lean` runs the checker in the kernel on each build; `C81More.lean` ties sizes and alignments to the types of C80, states the AVX matrix product in full and refutes the two functions that fail.
- **C82 Calls from several threads**: the language of the memory layer gets a second semantics, a tree of single accesses (`Act`, `Stmt.act`), and any number of such trees share a memory and make steps in any order (`Step`, `Steps`). `act_sound` proves that a function the analysis of C56 accepts has a run alone that reads only its arrays and writes only its outputs; `Mid` is the invariant of the interleaving (every thread is somewhere in its own run and the memory agrees with that run on the thread's arrays). `Lib.lean` lists all 682 functions with the sizes of their arguments, and the analysis accepts each. `Lib/Int.lean` does so for the 116 integer-vector functions, and a thread may mix both kinds. An integer operation that overflows leaves its thread stuck, so for an integer call it is a hypothesis that the call alone is defined. The bounds on its accesses come from a version whose operations never fail (`iact_sound`), and carry over because the checked thread does the same until it is stuck (`Act.Le`).
- **C83 Drift of long histories in binary32**: induction over the history. The rounding of one step comes from C64 and is turned from an error per component into an error of the whole (`Verif/F32Drift.lean` for quaternions, the Frobenius norm for matrices); multiplication by something of length one, or by an orthogonal matrix, keeps the error of earlier steps. Normalising makes the error of the length forget its past, so only the direction drifts. Sums use the rounding calculus `Near` directly, and the position that never moves is a fixed point of the rounded sum.
- **C84 Rotations in binary32**: a calculus of approximations (`Verif/F32Apx.lean`): `Apx f x M k A c` says that the float `f` is finite and within `((1+u)^k - 1) M + c 2^-150` of `x`, with `|x| ≤ M ≤ A`. Each rounded operation has a rule that also discharges overflow, so a tactic walks down the expression. The exact value is then recognised as the rotation (C09, C12, C50), and the magnitude `M` is bounded by the Cauchy-Schwarz inequality. The accuracy of the C library's sine and cosine is a hypothesis; a library that meets it at every float is exhibited.
- **C85 Projection matrices in binary32**: the calculus of C84 with rules for quotients and for sums of two arguments (`Apx.div`, `Apx.addv`). Every sum in these functions is a sum of two arguments, so the magnitude of every entry is the entry itself and the error is relative. Depth is then arithmetic over the reals: the entry that multiplies `1/d` keeps its sign, which gives the order.
- **C86 Determinants and inverses in binary32**: the calculus of C84 gives each determinant and each cofactor with its sum of magnitudes, which `ring` identifies with the permanent of the magnitudes (`M2.perm`, `M3.perm`, `M4.perm`, `minors`). One lemma bounds the reciprocal of the determinant, one the product of a cofactor with it. The true inverse is any matrix `X` with `M X = 1`; C04 says there is only one. `C86_det_cancels` is the witness that the magnitudes cannot be left out.
- **C87 View matrices in binary32**: the calculus of C84 with magnitudes 1 for the direction and `1/σ` for the side vector. A lemma about unit vectors of nearby vectors (`unit_close`) carries errors through `normalize`. The exact matrices `viewRh`, `viewLh` are written out; C26 says they are rigid, so C84's theorems about matrices near a rotation apply.
- **C88 Geometric tests in binary32**: the calculus of C84 bounds the two numbers that are compared; the geometry is that of C38, C39 and C40. Each theorem is stated with the exact distance, so the margin is visible in it.
- **C89 Ray and triangle in binary32**: the calculus of C84 bounds the four triple products. The signs of the weights are compared after multiplication by the determinant, so the margin does not grow with the weights. The weights and the distance are given by the equation of C41, not by the formulas of the code.
- **C90 Window coordinates in binary32**: the calculus of C84 with a divisor whose error is relative to its value, from the bound for the cancellation. The exact values are those of C32.
- **C91 Cubic curves in binary32**: the calculus of C84; the exact curves are the Bernstein and Hermite forms of C44. The ends by exact evaluation.
- **C92 Easing in binary32**: the calculus of C84 against the same functions over the real numbers (C46). Near 1 the square of a float t is rounded to 2t-1 or to something closer, which bounds the argument of the root in the circular functions.
- **C93 Ray and sphere in binary32**: the calculus of C84 bounds the coordinates of the vector from the line to the center. Its length is compared with the radius through the squares. The distances follow from the error of the discriminant over the exact half chord; the second one is a quotient by the first, as in the code. The exact intersections are those of C42.
- **C94 Conversion to Apple's vector types**: `Apple.lean` keeps the lanes of the uninitialised result as optional values and the types as a small datatype; `_Generic` compares after the array has become a pointer (C17 6.5.1.1). By cases.
- **C95 Excess precision**: `Wide.lean` runs the code on real numbers, with an arbitrary method that decides for each expression what is kept of the exact result. A nearest number exists in every format; two roundings cost at most 2^-24 + 2^-52 and keep binary32 numbers as they are. From this, an error calculus and a grid calculus like those of C64 and C76. Generated by `tools/widethms.py`.
- **C96 Reordered sums and products**: `Assoc.lean` runs the code on expressions, so that its result is the expression it computes. `Reassoc` is the equivalence generated by the laws a compiler may use. Exact value, magnitude, number of operations and grid are invariants of it, by induction; error bound and exactness follow for every expression that is a sum of products of inputs. Generated by `tools/assocthms.py`.
- **C97 Rounding modes and flushing to zero**: `Modes.lean` runs the expressions of C96 with a relation that allows every result an environment may store. A directed rounding is off by less than one unit in the last place, a flushed result by less than 2^-126. Error bound and exactness by induction on the run; lower and upper bounds by monotonicity. Generated by `tools/modethms.py`.
- **C98 Outputs that overlap inputs**: a second static analysis (`CMemLate.lean`): a write to an output makes unknown the input cells that it may be; which these are is a parameter (`Hit`): all cells, the cells after the one written, or those in a list (`Cells`).  Soundness relates two runs, one in the canonical memory of C56 and one in any memory with overlap; they agree wherever the analysis knows a cell (induction on the statement).  `CMemOver.lean` derives the call in every memory from the canonical run of C56.  `CMemILate.lean` and `CMemIOver.lean` do the same for integer vectors, where the canonical run may be undefined: if it is defined, so is the run with overlap.  The kernel evaluates the analysis on each function.  Generated by `tools/overthms.py` from the lists `tools/over.txt` and `tools/conf.txt` (for the functions that need a list of cells; the lists were computed from the order of reads and writes and are checked by the kernel, so the trusted base does not grow; the lists need not be the smallest possible).  `tools/exactthms.py` emits `Props/C98Exact*`, the converse for 266 pairs of an output and an input: binary32 contents for which an excluded position of the input gives a wrong result, evaluated by the kernel (`CMemDiff.lean`).  For 251 of the pairs (`_exact`) this covers every excluded position.  The other pairs are positions that are harmless after all, functions of the C library without a known value, or evaluations that take too long.
- **C99 Components that need not be initialised**: the analysis of C98 started without knowledge of certain cells (`CMemPart.lean`, `Entry.part`).  The canonical run with all cells initialised and the run in a memory where those cells hold anything (`Part`) agree on every cell the analysis knows; reading an indeterminate cell is undefined behaviour in the model, so a call that is defined does not read it.  Generated by `tools/partthms.py` from `tools/part.txt`; the cells were found by search and are checked by the kernel.

## Trusted base

- Lean 4.33.0's kernel.  Theorems depend at most on `propext`, `Classical.choice` and `Quot.sound`; there is no `sorry`
  and no `native_decide`.
- The reading of C in the translator.  The value translator and the memory translator are two separate emitters over the
  same parser: the C56 theorems check, function by function and for every scalar type, that running the C statements on
  memory gives what the value model says.  A parser mistake would be common to both.
- The hand-written definitions listed above, which cite the lines they model.
- The meaning of the intrinsics in `Verif/Simd.lean`.  They are not part of the repository; the definitions follow the
  vendors' documentation and each cites a place where cglm uses the intrinsic.
- The meaning of libm functions: opaque parameters in the generic model, the real functions over ℝ.

### What is modelled and what is not

- Modelled: every function of `include/cglm/*.h` and `clipspace/`, scalar path, default configuration (plus the other
  three clip-control configurations where they matter); `struct/`, `call/` and `src/` wrappers; integer vectors;
  the SIMD paths in `simd/` and in the functions themselves.
- `IoWrap.lean` has the wrappers of `io.h` and its empty macros for `NDEBUG` as a switch over the four macros that decide.
- `Apple.lean` has the conversions of `applesimd.h`.  Apple's own headers are not modelled, nor the unused lane of `simd_float3`.
- `Wide.lean` has evaluation in higher precision (`FLT_EVAL_METHOD`), without overflow, for sums, differences and products.
- `Assoc.lean` has reassociation (`-fassociative-math`) of sums and of products.
- `Modes.lean` has the rounding modes and flushing to zero, for sums, differences and products.
- Not modelled: the other freedoms of `-ffast-math` (distributing and factoring out products, reciprocals instead of quotients, no NaNs or infinities), `GLM_TESTS_NO_COLORFUL_OUTPUT`-style build details.

### Simplifications

- The modelled code has no `double` arithmetic.  Constants such as `GLM_PIf` are `double` literals converted to `float`;
  the model rounds the decimal once.
- An expression whose value is unspecified in C because a local is uninitialised becomes an extra parameter
  `uninit_<name>`; the struct wrappers that leak such a value are listed below.
- The null-pointer test in `glm_ray_triangle` is taken as non-NULL in the generated model.  The call with `NULL` is modelled
  separately in `Verif/Mem/RayNull.lean` (C41, C56).
- Division by zero over ℝ follows Lean's convention.  Theorems state non-zero hypotheses wherever the result is used;
  the branches that C reaches with a zero divisor are listed below.  C72 gives, function by function, the exact condition
  under which no result depends on a division by zero or another operation without a real value.  It concerns real
  arithmetic: overflow to infinity and underflow to zero are the subject of C64 and C65.  `atan2f(0, 0)` counts as
  undefined (the C standard allows a domain error; IEC 60559 gives zero).
- Memory layer: a cell holds a whole float, int or bool; there is no byte-level reinterpretation.  Evaluation is left to
  right with nested calls hoisted; `&&`, `||` and `?:` evaluate all their operands (five `*_isvalid` functions have a
  call on the right of `&&`; the calls are total and have no side effects).  Loops with constant bounds are unrolled.
  In the theorems about values (C55), arguments are equal to or disjoint from each other.  With partial overlap memory
  safety is proved for all functions (`C56_any_*`) and values for 493 of them, 70 under a condition on certain cells (C98).
- SIMD layer: values only (alignment of the accesses is C81); NaN payloads and the special-value tables of `vrecps` are not modelled.  Reciprocal
  estimates (`_mm_rcp_ps`, `vrecpe`) are arbitrary functions; theorems about them carry the factor the estimate
  contributes, and separately the bound that follows from the documented accuracy.  Bitwise operations are modelled only
  on sign masks and on comparison masks.

- Printing: the conversions of `printf` are correctly rounded (ties to even), a NaN is printed as `nan`; output errors are not modelled.
- Binary32 layer: one NaN (no payload or sign), no exception flags, only round-to-nearest-even, no flush-to-zero (both are in C97), no
  contraction to fused multiply-add (the explicit fused operations of AVX+FMA and NEON are rounded once).  `sqrtf`, `floorf`, `fabsf`, `fmodf`, `fminf` and `modff` follow IEEE-754/C; the other
  libm functions are arbitrary (class `Libm`).

## Where the code and the property disagree

Each entry is proved, with a concrete witness or an exact characterisation; the theorem name is given.

- `glm_quat_mat3/mat4` of a non-unit quaternion is not the rotation of its normalisation; 2i gives diag(1, -3, -3):
  `C10_refuted`.
- `glm_quat_slerp(p, q, 0)` is `-p` for an obtuse pair (`C13_start_refuted`); in the near-parallel fallback with p·q < 0
  the result can be almost zero (`C13_unit_refuted`).
- The left-handed Euler quaternions `glm_euler_*_quat_lh` do not match the Euler matrices: `C18_lh_disagrees`.
- `glm_rotated*` drop the translation of the matrix they rotate: `C19_rotated_loses_translation`, `C19_rotated_refuted`.
- `glm_spin` moves the object unless its position is on the axis (`C24_spin_refuted`); `glm_rotated_at` does not rotate
  about the pivot (`C24_rotated_at_refuted`, exact result in `C24_rotated_at_partial`).
- `glm_vec3_ortho` may return zero for a non-zero vector, e.g. (1/4, 0, 1/3) (`C51_ortho_refuted`), and then
  `glm_look_anyup` is singular (`C26_anyup_refuted`).
- `glm_frustum_lh_no/zo` map an off-centre frustum to the wrong corner: `C28_refuted_lh_no`, `C28_refuted_lh_zo`.
- `glm_ortho_aabb*` in the left-handed conventions clip the box they are given: `C29_aabb_lh_no_refuted`,
  `C29_aabb_lh_zo_refuted`.
- `glm_persp_decomp_x_lh_zo` and `_y_lh_zo` divide by an entry that is zero in every perspective matrix:
  `C30_decomp_xy_lh_zo_refuted`.
  They are undefined on all of them: `C72_decomp_x_lh_zo_undefined`, `C72_decomp_y_lh_zo_undefined`.
- `glm_frustum_corners_at` scales every edge by the length of the first: `C35_corners_at_refuted`.
  For the corners of a symmetric view volume it cuts at depth `n + (f - n) split / f`, not at `split`: `C73_split`,
  `C73_split_depth`.
- `glm_frustum_planes` and `glm_frustum_corners` take the near plane to be z = -w also for the depth range [0,1]:
  `C73_refuted_zo`, `C73_ortho_refuted_zo`; exact results `C73_exact_rh_zo`, `C73_corners_rh_zo_partial`.
- `glm_plane_normalize` turns a far plane with a short normal into the zero plane, so that nothing is beyond it:
  `C73_refuted_far`.
- `glm_mat2_print`, `glm_mat3_print` and `glm_mat4_print` choose the format of `matrix[j][i]` by comparing `matrix[i][j]` with the limit, so
  the columns are not aligned when only one of the two is above it: `C75_aligned_refuted`; aligned and in the proper format otherwise:
  `C75_mat4_aligned_partial`.  The values shown are right in any case: `C75_mat4`.
- `glm_arch_print` mentions `NEON_FP` exactly when `__ARM_NEON_FP` is not defined: `C75_neon_refuted`.
- The box/sphere and box/circle tests are not the intersection test: `C39_sphere_refuted`, `C39_circle_refuted`.
- `glm_sphere_merge` is not the smallest enclosing sphere: `C40_merge_not_smallest`.
- `glm_ray_sphere` divides zero by zero for a ray that starts at the tangent point's foot: `C42_zero_divisor`.
- `glm_ease_bounce_inout` starts at 1/2: `C46_bounce_inout_refuted`.
- `glm_vec4_reflect` keeps the fourth component, so it is not a reflection in four dimensions:
  `C51_vec4_reflect_refuted`.
- `*_eq_all` compare with a tolerance: `C52_eq_all_refuted`.
- `glm_sign(INT_MIN)` overflows: `C54_refuted`.
- Calls that are not safe with `dest` equal to an argument: `glm_mat2_mulv`, `glm_mat{2,3,4}_transpose_to`,
  `glm_quat_mul` (either operand), `glm_vec{2,3,4}_refract` on the normal, `glm_vec4_reflect`, `glm_aabb_crop_until` and
  `glm_aabb2d_crop_until` on the clamp box: `C55_*_refuted`, with the exact in-place result in `C55_*_inplace`.
  `glm_decompose(_rs)` writes its matrix argument before it is done with it, but the result is right over ℝ:
  `C55_decompose_inplace`, `C55_decompose_rs_inplace`.
- `glms_frustum_corners_at` overruns its arrays on every call: `C61_frustum_corners_at_refuted`.
- `glms_pickmatrix` for an empty region and `glms_euler_by_order` for an unknown order return an indeterminate value:
  `C61_pickmatrix_indeterminate`, `C61_euler_by_order_indeterminate`.
- `glm_perlin_vec3` and `glm_perlin_vec4` leave the interval [-1, 1]: `C71_exceeds_one_vec3`, `C71_exceeds_one_vec4`.
- SIMD against scalar.  `glm_vec4_normalize_to` on x86 and WebAssembly compares the squared norm with the epsilon where
  the scalar code compares the norm, so short vectors are zeroed in one build and normalised in the other
  (`C57_Sse2_glm_vec4_normalize_to_refuted` and the same name for the other configurations; `vec3_rotate_m3/m4` inherit
  it).  `glm_inv_tr` treats the last row differently: `C57_Sse2_glm_inv_tr_refuted`.  `glm_mul` on AVX is the full
  product, elsewhere the affine one: `C58_Avx_glm_mul_refuted`.  `glmm256_fnmsub` is wrong with FMA (a*b-c) and without (-(a*b-c)):
  `C58_Fma_glmm256_fnmsub_refuted`, `C58_Avx_glmm256_fnmsub_refuted`.

- Binary32.  `glm_lerp(a, b, 0)` is NaN for finite `a`, `b` whose difference overflows (`C65_lerp_zero_fails`) and
  `glm_lerp(a, b, 1)` need not be `b` (`C65_lerp_one_fails`).  `glm_vec*_normalize` turns a finite vector of length 2⁶⁴ or
  more into zero (`C65_vec3_normalize_fails`); `glm_quat_normalize` of a tiny quaternion is not a unit quaternion
  (`C65_quat_normalize_tiny_fails`).  `glm_min`/`glm_max` return a NaN given second but not one given first
  (`C65_min_nan_left/right`).  `glm_vec*_fract` of NaN is the largest number below one (`C65_vec3_fract_nan`).  `glm_eq`
  and `*_eqv_eps` are false for an infinity against itself (`C65_eq_inf`, `C65_vec3_eqv_eps_self`).
- Order in binary32.  `glm_smooth`, `glm_ease_quad_out` and `glm_ease_circ_out` are increasing over the reals but not in binary32: there
  are neighbouring inputs with the larger result at the smaller input (`C77_smooth_fails`, `C77_ease_quad_out_fails`,
  `C77_ease_circ_out_fails`).  `glm_lerpc(a, b, 1)` can exceed `b` (`C77_lerpc_upper_fails`).  The loop
  `x = glm_lerp(x, b, k)` can stop one unit before `b` (`C77_follow_arrives_fails`).  `glm_aabb_transform` and
  `glm_mat4_mulv3` add in different orders, so a transformed point of a box can lie outside the transformed box
  (`C77_aabb_transform_point_fails`).
- C80: docs/source/getting_started.rst gives `mat4` as `CGLM_ALIGN_IF(…)`, but types.h:91 uses `CGLM_ALIGN_MAT`, which
  `CGLM_ALL_UNALIGNED` does not switch off: the type still asks for 16 or 32 bytes (`C80_all_unaligned_fails`).  Also noted:
  docs/source/opt.rst says `vec3` is aligned to 8 bytes; the typedef asks for 4 (`C80_align`).  AVX enabled in only one part of
  a program moves `mat4` members (`C80_avx_incompatible`).
- C81: `glmm_load3` and `glmm_store3` (simd/x86.h) pass a `float v[3]` to `CGLM_ASSUME_ALIGNED` with 16 and 8, more than
  `vec3` has (`C81_load3_fails`, `C81_store3_fails`); unused inside the library.  Documentation slips found on the way: the parameters
  of `glm_swapf`, and `t1`, `t2` of `glm_ray_sphere`, are documented `[in]` but written; `dir` of `glm_ray_sphere` and `pivot`
  of `glm_quat_rotate_at` are documented `[out]` but only read; `box` of `glms_aabb_invalidate` is `[in, out]` but passed by
  value.
- C86: the computed determinant of a matrix of determinant 1 with entries near 8192 is 0 (`C86_det_cancels`), so its computed inverse is not finite.
- C87: `glm_look_rh` and `glm_look_lh` (clipspace/view_rh.h:73, view_lh.h:73) add the direction to the eye before `lookat` subtracts the eye again.
  With the eye at 2^25 and a direction of length 1 nothing is left of the direction: the nine direction numbers are zero (`C87_look_refuted`).
- The sphere tests without a margin are false in binary32: `C88_sphere_point_refuted`.
- A ray through the common edge of two triangles can miss both in binary32: `C89_gap_refuted`.
- A projection whose clip `w` is exactly 1 can divide by zero in binary32 when `w` is a sum of large terms: `C90_cancel_refuted`.
- A Bezier curve leaves the hull of its control values in binary32 (a constant curve is not constant): `C91_hull_refuted`.
- `glm_ease_bounce_out` exceeds 1 just before the end: `C92_bounce_refuted`.
- In binary32 `glm_ray_sphere` reports a hit for a sphere that is barely missed: `C93_miss_refuted`.
- `applesimd(x)` is rejected for `mat4`, `mat3`, `vec4` and `vec3` arguments, although its comment shows that use: an array argument becomes a pointer and matches no association: `C94_macro_refuted`.

Observed, not expressible as a theorem about a function: `glms_aabb2d_radius` calls `glms_aabb2d_size`, which is defined
nowhere; `struct.h` does not include `struct/aabb2d.h`; `glms_vec2_complex_mul/div/conjugate` take an ignored by-value
`dest`; `glms_perspective_resize*` takes (proj, aspect) where `glm_perspective_resize*` takes (aspect, proj);
`glms_mat4_mulN` accepts zero or one matrix where `glm_mat4_mulN` reads two unconditionally.  The empty print macros of release builds expand to several
statements, so `if (c) glm_vec3_print(v, s); else ...` does not compile there.

## Mutation testing

`seeded/LOG.jsonl` records edits made to the model in a scratch copy (wrong component, swapped column, sign, operator,
boundary, constant, dropped negation, wrong callee) and the theorems that then failed.
