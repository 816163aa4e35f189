{
 "C15": {
  "status": "partial",
  "note": "Holds for unsigned lanes; proved false for signed lanes (arithmetic shift / negative amounts), with the exact behaviour that remains."
 },
 "C26": {
  "status": "partial",
  "note": "The documented tree order is proved false on every target (C26_tree_fails). Proved instead: the exact left-to-right order computed on each target, equality of value across targets, NaN propagation, and agreement with every bracketing whenever the lanes are multiples of one power of two with bounded total magnitude."
 },
 "C04": {
  "status": "partial",
  "note": "Invariant proved over all histories of safe calls except casts to m128x1, for which it is proved false (C04_fails)."
 },
 "C37": {
  "status": "partial",
  "note": "Proved for every impl except casts to m128x1, which truncate instead of testing for nonzero (C37_m128x1_fails)."
 },
 "C60": {
  "status": "partial",
  "note": "Proved for all casts except float to integer lanes, where out-of-range lanes are undefined behaviour (C60_float_to_int_fails)."
 },
 "C40": {
  "status": "partial",
  "note": "Magnitude proved with operands swapped; the documented sign is proved false (C40_sign_fails), and zero-sized elements have undefined behaviour (C40_zero_sized_fails)."
 },
 "C47": {
  "status": "partial",
  "note": "Proved for every type and target except f32x2 on x86_64 with sleef-sys, where it is proved false (C47_f32x2_fails)."
 },
 "C63": {
  "status": "partial",
  "note": "Proved for every architecture except s390x, where it is proved false (C63_s390x_fails)."
 },
 "C50": {
  "status": "partial",
  "note": "The vertical, horizontal and parallel sums are proved for every slice and every task tree; the aligned parallel variant is proved for slices that start aligned (C50_aligned_partial) and proved wrong otherwise (C50_misaligned_fails, C50_empty_fails)."
 },
 "C53": {
  "status": "partial",
  "note": "Proved in full in exact arithmetic, for counts and whole images; in IEEE f64 for every starting point that is not NaN (C53_f64_partial), every region without NaN points, in particular every region with bounds up to 10^9 (C53_region, C53_region_finite), and the program as shipped (C53_generate, C53_pixels). For NaN points the claim is false, and what both loops return is proved (C53_nan, C53_nan_fails). For an arbitrary arithmetic proved under the two facts it needs (C53_count_partial)."
 },
 "C66": {
  "status": "partial",
  "note": "Result types proved correct for every entry; every vector type is produced except m16x32, for which no entry exists (C66_m16x32_fails)."
 },
 "C29": {
  "status": "partial",
  "note": "Lane selection proved for all valid index lists; rejection of out-of-range indices proved for the two-vector form; in the one-vector form indices from N to 2N-1 are accepted, not rejected (C29_one_vector_rejection_fails)."
 },
 "C31": {
  "status": "partial",
  "note": "Proved false: out-of-range indices panic, wrap or give zero depending on the target (C31_same_outcome_fails, C31_outcomes_fails, C31_narrowing_fails). Proved: shapes with only the portable implementation panic for out-of-range indices that fit 32 bits, and every lane returned is a whole lane of the vector or zero."
 },
 "C33": {
  "status": "partial",
  "note": "The implementation reverses the bytes of the whole vector: proved false for vectors of several lanes (C33_lanewise_fails) and true for single-lane vectors."
 },
 "C71": {
  "status": "partial",
  "note": "The parallel driver indexes its inputs by chunk number instead of element number: proved false (C71_parallel_fails), with the exact behaviour for all inputs and task orders (C71_parallel_reads) and equality for constant inputs such as the example's own."
 },
 "C73": {
  "status": "partial",
  "note": "Proved false: every short slice gives undefined behaviour in builds without debug assertions (C73_short_fails). Proved: debug builds always panic, and the scalar functions always panic."
 },
 "C74": {
  "note": "Laws holds for binary32 with unfused mul_adde (C74_f32) and for any commutative ring (C74_exact). With fused mul_adde on real floats the vector result may differ in the last bits from the scalar one; C75 still covers that case."
 },
 "C76": {
  "status": "partial",
  "note": "Proved false: a box touching the edge (C76_outside_fails) or a reversed z range (C76_reversed_fails) is undefined behaviour in the safe vector functions. Proved: the scalar function never has undefined behaviour, and the vector ones succeed for every box inside the grid."
 },
 "C77": {
  "status": "partial",
  "note": "Proved false without overflow checks (C77_wrap_fails: 65536 x 65536 x 1). Proved: full initialisation whenever the cell count fits i32 and memory, and no undefined behaviour with overflow checks."
 },
 "C80": {
  "note": "With overflow checks the claim is limited to n <= 10, where the sums are small by a counting bound; whether the true partial sums for n = 11..16 fit in i32 is not proved."
 },
 "C81": {
  "status": "partial",
  "note": "Proved false for the scalar algorithm with 13 and 14 cards: panic with overflow checks (C81_debug_fails), only part of the arrangements visited without (C81_release_fails). Proved: both algorithms for 3..=12 cards (3..=10 with overflow checks), the SIMD algorithm for 13 and 14 without overflow checks, rejection of everything else."
 },
 "C82": {
  "note": "Exact arithmetic (any field, any function as square root, sqrte equal to it). On f64 the programs round differently and sqrte is an estimate by its documentation; only C86 speaks of f64."
 },
 "C85": {
  "note": "Exact arithmetic, as C82. C85_run compares both programs with a table of its own."
 },
 "C89": {
  "status": "partial",
  "note": "Proved false: thread_rng seeds the scalar generator with 1 (first register empty forever) and lane 0 of the vector generator with 0 (three registers empty: each output is the previous one shifted by two bits). Proved: properly seeded generators stay so forever; lanes 2.. of the vector generator are properly seeded."
 },
 "C92": {
  "note": "Any ordered field and any square root function; on f32 the programs round differently, see C93."
 },
 "C93": {
  "status": "partial",
  "note": "Proved false on f32 (C93_f32_fails): a ray that just touches a sphere of the scene is a hit for the scalar and a miss for the packet algorithm, whether mul_adde is fused or not. Proved: a debug build panics exactly if some lane is not almost equal to the scalar result, and otherwise returns what the release build returns."
 },
 "C94": {
  "note": "Real arithmetic (IsReal)."
 },
 "C95": {
  "note": "Real arithmetic (IsReal); Enters/Meets are the specification of Spec/Aobench.lean."
 },
 "C96": {
  "note": "Real arithmetic."
 },
 "C97": {
  "note": "Real arithmetic."
 },
 "C98": {
  "note": "Exact arithmetic (linearly ordered field with sin, cos, sqrt as in Spec.Ao.Exact); on f32 C93_f32_fails shows the two differ."
 },
 "C99": {
  "note": "Exact arithmetic."
 },
 "C100": {
  "note": "On f32; sqrt, sin, cos and the fused multiply-add are arbitrary functions."
 },
 "C103": {
  "note": "Equality with the scalar renderer in exact arithmetic; the program itself over any arithmetic."
 },
 "C104": {
  "note": "C104_tiled over any arithmetic; C104_lanes in exact arithmetic."
 },
 "C105": {
  "status": "partial",
  "note": "Proved false in general (C105_short_fails): fdata is a public Vec, and tiled::ao on an image whose fdata was shortened accesses memory outside it. Proved: all accesses are inside the first 3*w*h elements, so inside the image if fdata has the length given by Image::new; the parallel version is safe for every length."
 },
 "C106": {
  "note": "Any distribution of rows to threads and any interleaving of single memory accesses (Spec/Concurrent.lean)."
 },
 "C107": {
  "note": "On f32; sqrt, sin, cos and the fused multiply-add are arbitrary functions."
 },
 "C110": {
  "note": "All 23 constants, all float vector types. The vector constants are splats of core constants; the core literals are transcribed into the model (core is not in /repo), and the theorem then shows the transcription to be the nearest float to the real number."
 },
 "C111": {
  "note": "Stated over the reals (Spec/FloatReal.lean). mul_add on s390x is not fused there (C63_s390x_fails), so it is excluded."
 },
 "C112": {
  "note": "Holds for every bracketing and order of the summands, so for every target's reduction order and every work split. The parallel sum is the aligned case of C50 (the unaligned one is wrong, C50)."
 },
 "C113": {
  "status": "partial",
  "note": "Proved for PPM files of any size, for PBM files whose width is a multiple of 8, and end to end for the program on such widths. False for PBM with other widths: a panic after the header, or success with a file too short to be read (C113_pbm_fails)."
 },
 "C114": {
  "status": "partial",
  "note": "Sizes, bounds and initialisation at hand-out hold (C114_inside_partial); the contracts of set_len and of deallocation after transmute are violated, proved false for every non-empty picture (C114_uninitialised_fails, C114_transmute_fails)."
 },
 "C115": {
  "note": "Scalar code and the operations whose model has no target argument enter as `code`. Float max/min element are included for a fixed choice of which zero llvm's maxnum returns. Math functions (libm / SLEEF) are left out: C47, C63."
 },
 "C116": {
  "note": "rayon itself is not modelled: its contract (par_chunks_mut hands out disjoint consecutive chunks, each task runs once, for_each returns after all tasks ended) is the model. Accesses are one element at a time and sequentially consistent, which is adequate because absence of races is proved in that model. Loads through shared references are not interleaved (nothing writes them meanwhile)."
 },
 "C117": {
  "note": "Hypothesis SqrtCorrect: library functions computing square roots without an accuracy suffix are IEEE square roots (that is what simd_fsqrt and llvm.sqrt are specified to be). It is met by Flt.sqrt, a computed square root proved to satisfy the relation for every bit pattern. NaN payloads are left open."
 },
 "C118": {
  "note": "Hypotheses: sqrt (and for packets sqrte) is IEEE's square root; mul_adde rounds a*b+c once or twice (C48); sine and cosine of the one angle used are numbers in [-1,1] whose squares add up to 1 within epsilon <= 1/100 (libm's accuracy is not modelled). C118_estimate_fails shows that a sqrte within the 3.5 ulp SLEEF documents is not enough; whether SLEEF's actual function returns that value is not decided here. Intersection parameters (raySphere's t) are not analysed, only the normal built from the hit point."
 },
 "C119": {
  "note": "Hypotheses: f64::sqrt is IEEE's square root (met by the model's Flt.sqrt, C117_computed); n even, at most 2^31, index arithmetic fits usize (otherwise C67 still gives equality of the programs). The rounding of the printed decimal is not part of this claim. The 78th-root-of-n factor is what ten rounds of power iteration guarantee from the all-ones vector without looking at the spectrum."
 },
 "C120": {
  "status": "partial",
  "note": "The comparison is proved wrong on grids that are not square: with more columns than rows it never looks at the last cells (C120_assert_misses_fails), with fewer it reads past the end and panics on data that are close everywhere (C120_assert_panics_fails); C120_assert_partial is the full claim for n_x = n_y. Everything else is proved in full."
 },
 "C121": {
  "status": "partial",
  "note": "Proved in full for integer and mask vectors. Proved false for floats: an unordered pair can never pass (its branch asserts both !(a == b) and !(a != b)), nor a pair with NaN after the deciding lane (C121_nan_fails); C121_float_partial says exactly what passes. Soundness for arbitrary operators is false: for different vectors `!=` and the converse of `<` are never looked at (C121_sound_fails); C121_sound_partial says what acceptance guarantees."
 },
 "C123": {
  "note": "Complete in exact arithmetic (both directions, every limit, scalar and vector). In f64 it is false in general: C123_f64_fails is a point of the set whose computed orbit leaves the circle at step 142 of 200. No such point was found for the program's own limit of 50. Proved in f64: orbits that keep an explicit margin from the circle of radius 2 (C123_f64_partial, C123_f64_margin), the points of the set on the real axis for every limit, the disc of radius 0.24, and these for the pixels of the program's pictures."
 },
 "C124": {
  "note": "Proved for elements that are integers (up to 28 scalar, 20 vector) times a common power of two, where cofactors and determinant are exact. Missing: general matrices, for which the claim is false (C124_singular_fails, C124_invertible_fails, C124_overflow_fails). General matrices with a determinant that is not small: C132."
 },
 "C126": {
  "note": "Proved: which lattice is priced (C126_scalar_partial, C126_simd_partial) and the bounds. The claim itself is false (C126_fails, C126_overpriced): the lattice has one period too few and starts one down move below s."
 },
 "C127": {
  "note": "Hypotheses Market and F32Fns, met by coarse_market. The accuracy of exp, powf and sqrt is not modelled: the exact price is the one for the computed factors and payoffs. The test's tolerance of 1e-5 does not follow from the worst case."
 },
 "C128": {
  "note": "Worst-case bound; the exact evolution is the specification's own time step relation instantiated with real numbers. C128_default's 1/8 is a worst case: the tolerance of the example's own tests (1e-4) does not follow from it, but with an unfused multiply-add C120 gives equality."
 },
 "C129": {
  "note": "Exact arithmetic with the real exp, ln and sqrt. callPrice is the discounted expected payoff (an integral against the Gaussian density); the closed formula is proved (C129_formula). The error of the polynomial is bounded on the whole half line: by sign of the derivative, with an integer polynomial checker evaluated by the kernel."
 },
 "C130": {
  "note": "ln and sqrt are unconstrained: their errors enter through d1 and d2 (C130_call). Literals are assumed rounded to nearest, which is what rustc does."
 },
 "C131": {
  "note": "Bound in terms of the states along the run (motion and impulses), which are not bounded themselves. The factor dt / r^3 enters as computed: both bodies of a pair get the same one, which is why its accuracy does not matter."
 },
 "C132": {
  "note": "Determinants below M^4/4096 are outside the error bound: singular and nearly singular matrices, on which C124_singular_fails and C124_invertible_fails show that both routines go wrong."
 }
}