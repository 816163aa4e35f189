# Formal model of packed_simd in Lean 4 — design

`/repo` is read as text only; nothing in it is compiled or run.  This document says what is
modelled, how each property of `properties.jsonl` is stated and proved, and what is trusted.

## 1. Layout

| directory | contents |
|---|---|
| `lean/Verif/Model/*.lean` | the model: executable Lean definitions, one group per source file, each citing the file and lines it models |
| `lean/Verif/Spec/*.lean`  | independent specifications, written without the model's helpers (integers, lists, Booleans, byte sequences) |
| `lean/Verif/Lemmas/*.lean` | helper lemmas |
| `lean/Verif/Props/*.lean` | the property theorems `Cxx_…` with a concrete `example` beside each |
| `MANIFEST.json` | property → status → theorem names |
| `seeded/LOG.jsonl` | mutation experiments |

## 2. Modelling decisions

* **Vector** `Simd<[T; N]>` = `Vector T n` (core Lean, fixed length).  `n` is universally quantified
  unless a code path exists only for particular lane counts.
* **Integer lane** = `BitVec w`, with an element type descriptor `IntTy` (width, signedness); numeric value
  `IntTy.val : Int`.
* **Mask lane** = the stored signed integer `BitVec w` (false = 0, true = all ones); `bool` at the API.
* **Pointer lane** = an address `BitVec w`, `w` = target pointer width.
* **Float lane** = its IEEE-754 bit pattern `BitVec w` with `man` fraction bits (`Format w man`: any such format, binary32 and binary64 are
  instances); comparison, classification, rounding, `+ - * / %`, min/max and conversions are modelled concretely on the bit pattern
  (`Model/Float.lean`, soft-float on exact integers).  Simplification: an operation that yields NaN yields the one quiet NaN
  `Flt.qnan` (LLVM leaves sign and payload of NaN results unspecified); theorems only speak of such results being NaN.  `min`/`max` take an
  arbitrary `pick` that decides which of two equal operands (`+0`/`-0`) is returned.  Transcendental functions are arbitrary scalar
  functions.
* **Panic / undefined behaviour** = explicit `Fault.panic` / `Fault.ub` in `R α = Except Fault α`.  Nothing is
  totalised with a default value.
* **Memory** = partial map from addresses to bytes (`none` = access would fault); a lane is stored in memory byte by byte in the target's byte order;
  `transmute` is "store, then load at the other type".
* **Target** = record of architecture, byte order, pointer width, enabled features.  `#[cfg]` dispatch becomes a function of the
  target, and theorems quantify over all targets.
* **Platform intrinsics** (`codegen/llvm.rs`, `std::arch` instructions) are modelled by their documented lane semantics; they are
  part of the trusted base.
* **Histories**: `Model/History.lean` is an inductive description of every mask value safe calls can produce; C04 is an invariant over it.
* **Macro-generated impl tables** (`Model/Tables.lean`, written by `tools/gen_tables.py`: which types convert to which) are transcribed as data (generated by a script from the macro
  invocations and committed as Lean source) and theorems quantify over all rows and all values.

## 3. Properties: plan

| id | modelled | proof |
|---|---|---|
| C01–C03 | `minimal/{iuf,mask,ptr}.rs` constructors and lane access with index check and `as u32` narrowing | lane extensionality, get/set laws; induction over replace sequences; decision logic for the panic |
| C04 | all mask-producing API operations as an inductive "reachable mask" relation | induction over histories; **fails** for `m128x1` cast (negation by witness, `_partial` excludes it) |
| C05–C07 | `slice/*.rs`, `from_array.rs`, byte-level memory | refinement: byte memory vs element list; frame lemmas |
| C08, C55 | `hash.rs` as feeding a stream of lane writes to an arbitrary hasher | refinement to array hash |
| C09–C15, C17 | `ops/*.rs` over `BitVec` | algebraic laws to `Int` arithmetic mod 2^w, bit-level lemmas; C15 **fails** for signed types (negation + `_partial`) |
| C16 | `vector_int_min_max.rs`, `vector_float_min_max.rs` | order lemmas |
| C18–C21 | `cmp/*.rs`, `masks.rs` | equivalence with list-lexicographic order spec; loops by induction |
| C22 | every implementation in `codegen/reductions/mask/` and the cfg dispatch | byte-level lemmas per instruction, recursion on halves, case analysis over targets |
| C23–C26, C48 | `reductions/*.rs` | fold lemmas; C26 **fails** (ordered, not tree; differs between targets) |
| C27–C29 | `bitmask.rs`, `select.rs`, `shuffle.rs` | lane lemmas |
| C30–C31 | all of `codegen/shuffle1_dyn.rs` | byte-level lemma for scaled indices; C31 **fails** (witnesses) |
| C32–C33 | `swap_bytes.rs` | byte reversal; C33 **fails** for more than one lane |
| C34 | `bit_manip.rs` | loop vs intrinsic; spec by counting |
| C35–C38 | `from_vector.rs`, `cast/*`, `into_bits/*` + impl tables | per-row `decide +kernel` on table conditions lifted by general value lemmas; C37 **fails** for `m128x1` |
| C59–C61 | `cast/*` tables, `simd_cast` lane semantics | soft-float conversions against `RoundsTo`; whole-table checks; C60 **fails** for float to integer lanes (out of range is undefined) |
| C39–C43, C62 | `minimal/ptr.rs`, `gather_scatter.rs` | modular arithmetic; memory frame lemmas; C40 **fails** (sign) |
| C44 | `fmt/*.rs` | list-of-characters model; injectivity by induction |
| C45 | `math/float.rs` | bit-pattern classification |
| C46–C47, C63–C64 | `codegen/math/float/*` split strategies and dispatch | lane-map lemmas for an arbitrary scalar function, of the accuracy documented; C47 **fails** for `f32x2` (reads the wrong component); C63 **fails** on s390x (two roundings) |
| C56 | `masks.rs` scalar masks | case analysis at every width |
| C57, C58 | float operators and reductions | soft-float against `RoundsTo` (nearest-even of the exact rational) |
| C49–C51 | `lib.rs` documentation example, `examples/slice_sum`, `examples/dot_product` | loop induction to "a sum of exactly these elements, in some order"; all rayon task trees; C50 **fails** for misaligned or empty slices |
| C52 | `examples/matrix_inverse` | programs evaluated symbolically on the 16 entries; field identities against Mathlib's `Matrix.det` and product |
| C53 | `examples/mandelbrot` | loop invariants; escape is permanent in any ordered ring; in `f64` it is permanent too, for every starting point which is not NaN: error bounds over the reals away from the circle (`Lemmas/MandelFloat.lean`), norm inequalities near it (`MandelRing`), and the exact grid of floats near ±2, where single roundings decide (`MandelFine`); C53 **fails** for NaN |
| C65, C66 | generated declaration tables (types, storage, shuffle outputs) | `decide +kernel` over every row, lifted to all pointer sizes; C66 **fails** for `m16x32` |
| C54 | `examples/triangle_xform` | loop invariants over lanes and vertices; list induction over chunks |
| C67, C68 | `examples/spectral_norm` | list induction relating pairs of lanes to pairs of accumulators; matrix powers (Mathlib `Matrix`) as loop invariant |
| C69–C73 | `examples/options_pricing` (not the ISPC bindings) | lane projections of the kernels; loop invariants over blocks in any order; Pascal induction for the lattice; C71 **fails** (parallel driver reads option `i / 8 + i % 8`), C73 **fails** in release builds |
| C74–C77 | `examples/stencil` (not the ISPC bindings) | loop bodies as updates of disjoint index sets, composed in any order; unique outcome of the time steps gives equality; C76 **fails** for boxes at the edge and reversed ranges, C77 **fails** when the cell count wraps |
| C78–C81 | `examples/fannkuch_redux` (both algorithms, `main`'s argument check; `while` loops take a number of iterations, results are stated for all large enough numbers) | a potential on arrangements bounds the flips; rotation counters as mixed-radix digits; loop invariants with a decreasing measure; C81 **fails** for 13 and 14 cards with the scalar algorithm |
| C82–C86 | `examples/nbody` (scalar.rs, simd.rs, lib.rs; any number of bodies, arbitrary arithmetic; main.rs: C125) | list induction for the in-place scalar update; loop invariant over the list of pairs for the SIMD one; both equal to a separate system of `N` bodies (`Spec/Nbody.lean`) over any field and any square-root function; antisymmetry of the forces for momentum; C86 for arbitrary arithmetic |
| C87–C90 | `examples/aobench/src/random.rs` bit for bit (the `Rc<UnsafeCell>` handle is a state passed along) | lane lemmas for the vector generator; generic lemma for one shift register (bits counted from the top) and induction on the call number; exactness of `1.v - 1` from the float library; C89 is false for the seeds used |
| C91–C93 | `examples/aobench/src/{geometry,intersection}` over any lane arithmetic, with the debug assertions (`Model/Examples/Aobench.lean`) | each packet operation is shown to act on lanes (a one-lane function); exact arithmetic makes it the scalar function; C93 is false on `f32` (a ray touching a sphere of the scene, with and without fused multiply-add) |
| C94–C97 | the scalar functions of the same files over the reals, and the ray casting and sampling of `ambient_occlusion.rs` | quadratic equation; fold invariant over the spheres; vector algebra |
| C98–C101 | `examples/aobench/src/ambient_occlusion.rs` and `scene/*.rs` over an arbitrary lane arithmetic; the scene is a state machine delivering random numbers | nested loops as iteration of one step; simulation between packets and runs of scalar samples; exactness of small whole numbers on `f32` under any order of summation; period 128 of the test scene |
| C102–C104 | `examples/aobench/src/{scalar,vector,tiled}.rs` as programs on the memory `img.fdata` (`Model/Examples/AoImage.lean`), one load or store at a time | loops over pixels/packets are shown to act on one pixel/packet of the list of grey values; lane simulation for packets |
| C105, C106 | the same and `{scalar,vector,tiled}_parallel.rs`: threads with interleaved accesses (`Model/Concurrent.lean`); rayon distributes the rows arbitrarily | accesses confined to rows, disjointness ⇒ no race and every interleaving ends in the state of running the threads one after the other |
| C107 | the six renderers on `f32` | exact addition, multiplication and division by powers of two of multiples of a power of two |
| C108 | `examples/aobench/src/image.rs` (`clamp`, layouts of `write_png`; the PNG encoder and the file system are not modelled) | monotonicity of rounding; loop invariant |
| C109 | `examples/aobench/src/scene/{random,test}.rs` with the renderers of C102–C107 | invariant of the scene state through every loop (`Delivers`), then C102–C107 |
| C110 | `src/api/math/float/consts.rs`; the `core` literals it splats are transcribed (not in /repo) | real enclosures of π, e, ln 2, ln 10, √2 to 1e-18 and a gap lemma: a real within half a unit of a float is nearer to it than to any other |
| C111 | the lane operations of C16/C18/C63 read as real numbers (`Spec/FloatReal.lean`: `realVal`, `unitRoundoff`, `overflow`) | from "nearest, ties to even": a gap lemma between neighbouring floats, sums are exact below the normal range |
| C113 | `examples/mandelbrot/src/{lib,main}.rs` (`Model/Examples/MandelImage.lean`; argument parsing by structopt and ISPC not modelled), writers that fail at any point | a separate reader of the Netpbm formats (`Spec/Netpbm.lean`) applied to the bytes written; C113 **fails** for PBM widths that are not multiples of 8 |
| C114 | the `Vec` operations of `scalar_par.rs`, `simd_par.rs` (sizes and layouts only) | arithmetic; C114 **fails** (`set_len` before initialisation, `transmute` of `Vec`) |
| C112 | `FVec.sum`, `sumVer`, `sumHor`, `sumVerPar`, `dotSimd`, `dotScalar` | induction over `SumOf`: every bracketing and order of the summands has at most n-1 roundings on each path |
| C115 | programs over the API (`Model/Portable.lean`: calls, sequencing, loops that need not end) run on a target | a target-free meaning of every call (`Spec/Portable.lean`), per-call equality from C08, C19-C25, C27-C32, then induction over runs; witnesses that the calls left out do differ |
| C116 | the rayon tasks of the parallel examples as threads making one element access at a time on the buffer they write (`Model/Examples/ParDrivers.lean`); all interleavings | each task only touches its chunk and does to it what the sequential model does (`Sim`), then the interleaving theorem of C106; induction over the time steps; against C74/C75, C71, C53 |
| C117 | `sqrt`, `sqrte`, `rsqrte`, `recpre`; IEEE square root as a relation (`Spec/Sqrt.lean`) and as a computation (`Model/FloatSqrt.lean`) | nearest-float theory over the reals; the tables of C46 checked for the accuracy of the functions they name; hypothesis on the library: `SqrtCorrect`, met by `Flt.sqrt` |
| C118 | the functions of C94-C99 (`Model/Examples/Aobench.lean`, `AoOcclusion.lean`) at `F32`, the same definitions | rounding-error analysis over the reals (`Lemmas/F32Real.lean`, `AoFloat.lean`, `AoFloatDir.lean`): forward errors of dot products, Cauchy-Schwarz for the basis and the turned vector; hypotheses: `RootOk`, `MulAddOk`, `TrigOk`, the first two met by the computations of the model; a 3.5-ulp `sqrte` is a counterexample |
| C119 | `examples/spectral_norm` (`Model/Examples/Spectral.lean`) at `F64`, the same definitions as C67 | all quantities are positive, so every rounding is a factor between `1 - 2^-53` and its inverse (`Lemmas/F64Near.lean`); ranges from row sums below 3 and a first component that stays at least 1; the exact value against the spectral norm by log-convexity of the moments `1·(MᵀM)^k 1` (Cauchy-Schwarz), no eigenvalues needed; hypothesis: `sqrt` is IEEE's, met by the model's |
| C120 | `examples/stencil/src/lib.rs` (`Model/Examples/StencilData.lean`): `Data`, its constructors, `exec`, the test comparison `assert_data_eq` | composition of C77 (initialisation) and C74 (the programs) through `from_bounds`' geometry; the comparison by showing the index is a bijection onto the cells when `n_x = n_y`, with a concrete witness on either side otherwise (partial) |
| C121 | `src/testing/utils.rs` (`Model/Testing.lean`) over an arbitrary record of comparison operators, instantiated with those of C19–C21 | case analysis over the outcomes of one generic lemma (operators of a partial order), instantiated with C19–C21; soundness by reading off the assertions; **fails** for unordered pairs and NaNs after the deciding lane, and misses wrong `!=` (partial) |
| C122 | `examples/aobench/src/random.rs` (`Model/Examples/AoRandom.lean`) | each register is a linear map; its power `2^k - 1` is the identity and no power by `(2^k - 1) / q`, `q` prime, has a fixed point, checked on matrices packed into one number (`decide +kernel` over the finite matrices); the combination by taking differences over the other registers' cycles |
| C123 | `examples/mandelbrot/src/{scalar_par,simd_par,lib}.rs` (`Model/Examples/Mandelbrot.lean`, `MandelImage.lean`) | `Spec/MandelSet.lean` defines the set by boundedness of the iterates; an orbit past radius 2 grows geometrically, so the count decides membership; in `f64` the distance from the true orbit by induction on a recursion for the drift; on the real axis an invariant interval that rounding respects; a counterexample in the set (24 discs mapped into each other, checked in integers) whose computed orbit leaves |
| C124 | `examples/matrix_inverse` (`Model/Examples/Matrix.lean`) at `f32` | `Spec/FloatMatrix.lean`: the real matrix of a matrix of `f32`; the polymorphic program run side by side at `f32` and at the reals: products and sums of integers times a power of two are exact up to 2^24 units, so cofactors and determinant are exact; then relative errors of the reciprocal, the Newton step and the final product against Mathlib's `Matrix` inverse. False in general: witnesses evaluated by the kernel |
| C125 | `main.rs` of `examples/fannkuch_redux`, `spectral_norm`, `nbody` (`Model/Examples/Mains.lean`), with `usize::from_str`, `Display` of integers and `{:.9}` of `f64` modelled from the documentation of `core`; ties and the sign of `-0.0` in printing are left open (both choices) | a separate reading of decimal texts as numbers (`Spec/Decimal.lean`); induction on the digits; combined with C81, C119, C86 for the values printed |
| C126 | the binomial kernels of `examples/options_pricing` over the real numbers with the real `exp`, `sqrt`, powers | a textbook definition of the Cox–Ross–Rubinstein price as an expectation (`Spec/Lattice.lean`); Pascal induction turns the in-place recurrence into it; **fails**: `N - 1` periods from `s / u` are priced, and a put certain to be exercised is overpriced (`C126_fails`) |
| C127 | the same kernels in `f32`, any library `exp`, `powf`, `sqrt` | relative and absolute error bounds of one step back, induction over the steps with all quantities non-negative; overflow excluded by a bound on the nodes |
| C128 | the stencil programs in `f32` against their own time steps over the reals | a calculus counting roundings for one cell (13, fused or not), linearity of the exact step for the errors so far, induction over the steps; overflow excluded by the growth bound |
| C129 | the Black–Scholes kernels of `examples/options_pricing` over the real numbers | the price specified as a discounted mean payoff under a Gaussian integral (`Spec/BlackScholes.lean`), the closed formula derived from it; the error of the polynomial for the normal distribution bounded on all of ℝ through its derivative, whose sign is settled by polynomial range bounds with integer coefficients; arbitrage bounds from the same derivative |
| C130 | the same kernels in `f32`, with any library `exp` of stated accuracy, any `ln`, `sqrt` | an absolute-error calculus in units of 2⁻²⁴ for the polynomial, relative bounds for the quotient and the exponent, `t e^-t ≤ 1` for the error in the exponent; the normal distribution function is 2/5-Lipschitz |
| C131 | the same model as C82–C86, at `F64` | a relation `Drift` between momentum before and after, closed under composition and under adding bystanders; one exchange of impulses bounded from two roundings of the product and one of the sum; finiteness carried backwards; list induction (scalar), loop invariant over pairs (SIMD) |
| C132 | the same model as C52 and C124, at `F32` | `Spec/MatrixNear.lean`: elements bounded by `M`, results within an absolute bound; the polymorphic program run side by side at `f32` and at the reals with a relation `Near M d b e` (value at most b M^d, error at most e/64 roundoffs times M^d) closed under +, -, *; then the reciprocal, the Newton step and the scaling |
| C133 | the same model as C54, at `F32` | `Spec/TriangleFloat.lean`: the affine image over the reals and the sum of magnitudes; C54 gives the expression each coordinate is computed with, to which the error bounds of f32 `+` and `*` are applied one after the other |
| C134 | the same model as C84, at `F64` | `Spec/NbodyEnergy.lean`: the system over the reals, its energy (`Sys.energy`, as in the exact theorem) and the same sum with all terms positive; induction over the bodies with the relative error of each term (`Near`) and the error of the running sum relative to the sum of magnitudes; the identity of C84 of the loops with the energy, over the reals, does the rest |
| C135 | the same model as C84, at `F64` | `Spec/NbodyStep.lean`: the exact step (`Sys.step`, as in the exact theorem), the magnitudes that are added up for a velocity (`Sys.effort`) and the bounds (`NearStep`); relative error of each pull (`Near`), invariant over the loops over pairs: after a list of pulls, the velocity is within (number of pulls + const) roundings of the exact sum, and positions and masses are unchanged; the identity of C84 of the set of pulls with the others' pulls, over the reals |
| C136 | the same model as C92, at `F32` | `Spec/AoHit.lean`: hits and misses of planes and spheres up to rounding (`HitsPlane`, `MissesPlane`, `HitsSphere`, `MissesSphere`); forward error of the scalar products (`DotOk`, as in C118), so that one lemma each for plane and sphere covers the scalar and the packet code, and the residual of the equation of the plane or sphere at the parameter computed; the normal at the sphere is C118 |
| C137 | the same model as C95, at `F32` | `Spec/AoCast.lean`: the nearest hit of a scene up to rounding (`Nearest`); invariant over the loop over spheres (`CastOk`): no sphere tested so far is hit nearer than the hit recorded, which is a hit of one of them, from C136 and monotonicity of misses in the distance; the literals of the scene evaluated |
| C138 | the same model as C102-C104, at `F32` | `Spec/AoCamera.lean`: the pinhole camera (`camera`) and directions through a sample up to rounding (`Through`); forward error analysis of the four ways to compute a direction: sample in the pixel, offset from the centre (two orders of summation), quotient, aspect ratio before or after; then C118 for the normalization and C137 for the surface seen |
| C139 | the same model as C100, at `F32` | `Spec/AoShade.lean`: `LeavesSurface` and `Occlusion`; C100 names the rays that are counted, C118 gives their directions, the error of one sum their origin and C137 what they hit; induction over the draws for the range of the random numbers; each ray is tied to its own pair of draws. Not stated: the angle around the normal, which the second number of the pair sets |
| C140 | the same model as C100, at `F32` | `Occlusion` of `Spec/AoShade.lean` again; induction over the packets (`packet_count`: every lane counts its own hits and the draws are those of the scene), counting by lane or by ray, exact sums of whole numbers in any order (C100), then C118 and C137 for packets. As in C139 the angle around the normal is not stated; `sqrte` is taken to round to nearest, which C117 shows without SLEEF only |

## 4. Trusted base

* Lean 4.33.0 kernel; axioms at most `propext`, `Classical.choice`, `Quot.sound` (checked with `#print axioms`).
* The reading of the Rust source into the model (each definition cites its source).
* The documented semantics of rustc/LLVM SIMD intrinsics and of the `std::arch` instructions named in the model.
* The literals of `core::f32`, `core::f64` and their `consts` modules, transcribed in `Model/FloatConsts.lean` (`core` is not part of /repo).
* rustc layout facts: lane `i` of a `repr(simd)` vector lives at byte offset `i * size_of::<T>()`, on both byte orders
  (`/repo/tests/endianness.rs` documents this).

## 5. Which code is modelled, file by file

`Model/` is short for `lean/Verif/Model/`.  "All" means every function with a run-time effect, in every `cfg` branch for the targets of the `Target` record.

| files in /repo | model | modelled | left out or simplified |
|---|---|---|---|
| `src/lib.rs`, `src/api.rs`, `src/v16.rs` … `v512.rs`, `vSize.rs`, `vPtr.rs`, `src/codegen/v*.rs`, `vPtr.rs`, `vSize.rs`, `pointer_sized_int.rs`, `src/sealed.rs` | `Types`, `Tables` (generated) | the vector types, their declared element, lane count, mask and test name, and which `impl_*!` macro each gets | documentation, attributes; trait bounds only as far as they decide which methods exist |
| `src/masks.rs` | `Minimal`, `Fmt`, `Compare` | all | – |
| `src/api/minimal/iuf.rs`, `mask.rs`, `src/api/default.rs` | `Minimal` | all | – |
| `src/api/minimal/ptr.rs` | `Ptr`, `Fmt`, `Compare`, `Slices` | all | pointers are addresses: no provenance; allocation bounds appear only as preconditions of the `unsafe` and `offset` family (C39, C40) |
| `src/api/ptr/gather_scatter.rs` | `Ptr` | all | memory is a partial map from addresses to bytes |
| `src/api/ops/*.rs` | `Ops`, `FloatVec` | all, integer, mask and float instances, vector and scalar forms | – |
| `src/api/cmp/*.rs`, `src/api/bitmask.rs` | `Ops` (vertical), `Compare` | all | – |
| `src/api/reductions/{bitwise,integer_arithmetic,min_max,float_arithmetic}.rs` | `Reduce`, `FloatVec` | all, both the intrinsic and the loop (aarch64 …) branches | – |
| `src/api/reductions/mask.rs`, `src/codegen/reductions/**` | `MaskReduce` | all branches: fallback, sse, sse2, avx, avx2, arm, aarch64 | instructions by their documented effect |
| `src/api/select.rs`, `shuffle.rs`, `shuffle1_dyn.rs`, `swap_bytes.rs`, `src/codegen/{shuffle,shuffle1_dyn,swap_bytes}.rs` | `Ops`, `Shuffle` | all | `shuffle!`'s compile-time index check is a condition |
| `src/api/slice/*.rs`, `src/api/from/*.rs`, `src/api/hash.rs` | `Slices`, `Cast` | all | `debug_assert!`s implied by the callers' checks |
| `src/api/cast/**`, `src/api/into_bits/**` | `Cast`, `Bytes`, `Tables` | the macros and every row of the `impl` tables | `arch_specific.rs`: as byte reinterpretations between equal sizes |
| `src/api/bit_manip.rs`, `src/codegen/bit_manip.rs` | `BitManip` | all | – |
| `src/api/fmt/*.rs` | `Fmt` | all five traits, with a sink that may fail | how `core` prints one scalar: an arbitrary function |
| `src/api/math/float/*.rs`, `src/codegen/math/float/*.rs` | `Math`, `MathTypes`, `MathTables` (generated), `FloatConsts`, `FloatSqrt` | which library function each method reaches on each target and type, how the vector is split, padded and joined | library functions are arbitrary scalar functions, except `sqrt` (C117), `abs`, `mul_add` (C63, C64) |
| `src/codegen/llvm.rs` | `Intrinsics`, `Float` | every declared intrinsic that the crate uses | trusted semantics |
| `src/testing/utils.rs` | `Testing` | `test_lt`, `test_le`, `test_cmp` | `ptr_vals!` |
| the rest of `src/testing/`, `#[cfg(test)]` code, `tests/`, `verify/`, `micro_benchmarks/`, `ci/`, `build.rs` files, `examples/*/benches` | – | – | tests, instruction checks, build scripts and benchmarks are not modelled; `tests/endianness.rs` is used as documentation of layouts |
| `examples/slice_sum`, `dot_product` | `Examples/Sums` | all but printing and timing | – |
| `examples/matrix_inverse` | `Examples/Matrix` | both inversions | – |
| `examples/triangle_xform` | `Examples/Triangle` | both transformations, packing and unpacking | the random triangles of the tests |
| `examples/mandelbrot` | `Examples/Mandelbrot`, `MandelImage`, `MandelVec`, `ParDrivers` | both algorithms, regions, both file formats, buffers, tasks | command line (`structopt`), `ispc_tasks.rs` (C code) |
| `examples/spectral_norm` | `Examples/Spectral`, `Mains` | all | – |
| `examples/nbody` | `Examples/Nbody`, `Mains` | all | – |
| `examples/fannkuch_redux` | `Examples/Fannkuch`, `Mains` | all, including the choice of algorithm and size limits | – |
| `examples/options_pricing` | `Examples/Options`, `ParDrivers` (C69–C73, C126, C127) | both kernels, serial and parallel drivers, `sum`, `State::new` | command line, `ispc_.rs`, the test helper `almost_equal` |
| `examples/stencil` | `Examples/Stencil`, `StencilData`, `ParDrivers` | the scalar, vector and parallel programs with their dispatch, `Data` with `new`, `from_bounds`, `reinit`, `exec`, and the test helper `assert_data_eq` | command line, `ispc_loops.rs` |
| `examples/aobench` | `Examples/Aobench`, `AoOcclusion`, `AoRandom`, `AoImage` | geometry, intersection, occlusion, scenes, generators, six renderers, `write_png`'s bytes | command line, timing, the PNG encoder (crate `png`), `ispc_.rs` |

## 6. Not modelled

* Instruction selection, performance, register allocation, calling conventions.
* Accuracy of transcendental functions (LLVM / SLEEF): taken as arbitrary scalar functions.
* Conversions to architecture types (`__m128i` …) other than as byte-level reinterpretation.
* Foreign code (ISPC kernels, SLEEF, libm) and third-party crates (rayon only through its contract: tasks are run once each, in any interleaving).
