{"id": "C01", "title": "Lanes read back what was put in", "statement": "A vector built with `new(x0,..,xN-1)` yields `xi` from `extract(i)` for every i < lanes(); a vector built with `splat(x)` yields x from every lane; two vectors whose lanes all read equal are the same vector.", "quantifier": "every lane count, every element value, every in-range lane index; numeric vectors, masks and pointer vectors", "why_tests_cant": "element values range over up to 2^128 bit patterns per lane; tests only use a handful of constants", "anchors": ["src/api/minimal/iuf.rs:new,splat,extract", "src/api/minimal/mask.rs:new,splat,extract", "src/api/minimal/ptr.rs:new,splat,extract"]}
{"id": "C02", "title": "replace changes exactly one lane", "statement": "`v.replace(i,x)` returns a vector whose lane i reads x and whose every other lane reads what it read in v; replacing twice at the same lane keeps the last value and replacements of different lanes commute.", "quantifier": "every vector, every pair of in-range lanes, every value; any finite sequence of replacements", "why_tests_cant": "sequences of updates are unbounded and values cannot be enumerated", "anchors": ["src/api/minimal/iuf.rs:replace,replace_unchecked", "src/api/minimal/mask.rs:replace", "src/api/minimal/ptr.rs:replace"]}
{"id": "C03", "title": "Checked lane access panics exactly out of range", "statement": "`extract(i)` and `replace(i,x)` panic if and only if i >= lanes(), and never have undefined behaviour, for every usize index (including those that would wrap when narrowed to the 32-bit index of the underlying intrinsic); the unchecked variants agree with the checked ones on every in-range index.", "quantifier": "every usize index and every vector", "why_tests_cant": "the index space is 2^64; only boundary values can be tested", "anchors": ["src/api/minimal/iuf.rs:extract,extract_unchecked,replace,replace_unchecked", "src/api/minimal/mask.rs", "src/api/minimal/ptr.rs"]}
{"id": "C04", "title": "Masks are always all-zeros or all-ones in each lane", "statement": "Every mask vector obtained by any sequence of safe API calls (constructors, replace, comparisons, boolean operators, select, shuffles, casts, From, FromBits) has each lane equal to either 0 or all ones, so that true/false lanes are recovered exactly by extract, reinterpretation and reduction.", "quantifier": "all histories of safe operations producing masks, all operand values, all lane widths and counts, all targets", "why_tests_cant": "histories are unbounded; the invariant is an induction over API calls", "anchors": ["src/api/minimal/mask.rs", "src/api/cast/macros.rs:impl_from_cast_mask_", "src/api/cast/v128.rs:m128x1", "src/api/into_bits/", "src/masks.rs"]}
{"id": "C05", "title": "Reading a vector from a slice takes the first N elements", "statement": "`from_slice_unaligned(s)` returns the vector whose lane i is s[i] for i < N and panics iff s.len() < N; `from_slice_aligned` does the same and additionally panics iff the slice start is not aligned to the vector; neither reads memory outside the first N elements of the slice.", "quantifier": "every slice length, start address, contents, element size and byte order", "why_tests_cant": "slice lengths, addresses and contents are unbounded", "anchors": ["src/api/slice/from_slice.rs", "src/api/minimal/ptr.rs:from_slice_unaligned"]}
{"id": "C06", "title": "Writing a vector to a slice touches only the first N elements", "statement": "`v.write_to_slice_unaligned(s)` makes s[i] = lane i for i < N and leaves every other element and every other byte of memory unchanged; it panics (leaving memory untouched) iff s.len() < N; the aligned variant also panics iff the start is misaligned.", "quantifier": "every memory state, slice position and length, vector value, element size and byte order", "why_tests_cant": "frame conditions quantify over all memory and cannot be tested exhaustively", "anchors": ["src/api/slice/write_to_slice.rs", "src/api/minimal/ptr.rs:write_to_slice_unaligned"]}
{"id": "C07", "title": "Slice and array round trips", "statement": "Reading back what was just written returns the same vector; writing back what was just read leaves memory unchanged; `<[T;N]>::from(V::from(a)) = a` and `V::from(<[T;N]>::from(v)) = v`, with array element i equal to lane i.", "quantifier": "every vector, array, memory state and byte order", "why_tests_cant": "values are unbounded", "anchors": ["src/api/from/from_array.rs", "src/api/slice/", "src/api/minimal/ptr.rs:From"]}
{"id": "C08", "title": "Hash of a vector equals hash of its lane array", "statement": "Hashing a vector feeds the hasher exactly as hashing the array of its lanes would, hence equal vectors hash equal under every hasher and vectors of pointers hash as their addresses.", "quantifier": "every vector value, every hasher state machine", "why_tests_cant": "ranges over all hashers and values", "anchors": ["src/api/hash.rs", "src/api/minimal/ptr.rs:Hash"]}
{"id": "C09", "title": "Integer + - * act lane by lane modulo 2^w", "statement": "Each lane of a+b, a-b, a*b is the unique value of the lane type congruent modulo 2^w to the exact integer sum, difference, product of the operand lanes; no lane influences another; the result never panics.", "quantifier": "all lane widths, lane counts, signedness and operand values", "why_tests_cant": "2^(2w) operand pairs per lane; wrap-around makes sampling unreliable", "anchors": ["src/api/ops/vector_arithmetic.rs", "src/codegen/llvm.rs:simd_add,simd_sub,simd_mul"]}
{"id": "C10", "title": "Integer / and % are truncated division lane by lane", "statement": "When no divisor lane is zero (and no lane is MIN / -1), a/b is the integer quotient truncated toward zero and a%b the matching remainder, so a = (a/b)*b + a%b, |a%b| < |b| and a%b has the sign of a; the only operand vectors outside the defined domain are those with such a lane.", "quantifier": "all widths, signedness, operand vectors", "why_tests_cant": "operand space too large; the defined domain is a universally quantified guard", "anchors": ["src/api/ops/vector_arithmetic.rs", "src/codegen/llvm.rs:simd_div,simd_rem"]}
{"id": "C11", "title": "Mixed vector/scalar operators broadcast the scalar", "statement": "For every binary arithmetic, bitwise, shift operator `v op s` and (where it exists) `s op v` give in each lane the scalar result of lane op s (respectively s op lane); the assigning forms leave exactly the value of the non-assigning form in the variable.", "quantifier": "all operators, scalars, vectors, lane types including masks (scalar bool)", "why_tests_cant": "unbounded operand values", "anchors": ["src/api/ops/scalar_arithmetic.rs", "src/api/ops/scalar_bitwise.rs", "src/api/ops/scalar_shifts.rs", "src/api/ops/scalar_mask_bitwise.rs"]}
{"id": "C12", "title": "Unary minus negates each lane with wrap-around", "statement": "Each lane of -v is the lane type's value congruent to the negated lane modulo 2^w; -(-v) = v and v + (-v) = 0 for every vector including lanes equal to MIN.", "quantifier": "all signed integer vectors", "why_tests_cant": "implemented as a multiplication by -1; the corner MIN and every width must be covered", "anchors": ["src/api/ops/vector_neg.rs"]}
{"id": "C13", "title": "Bitwise operators act bit by bit", "statement": "Bit j of lane i of !a, a&b, a|b, a^b is the Boolean not/and/or/xor of bit j of lane i of the operands.", "quantifier": "all widths, lanes, bits, values", "why_tests_cant": "value space", "anchors": ["src/api/ops/vector_bitwise.rs"]}
{"id": "C14", "title": "Shifts multiply and floor-divide by powers of two", "statement": "For shift amounts below the lane width, lane i of a << b is lane a * 2^b modulo 2^w, and lane i of a >> b is floor(a / 2^b) for unsigned and signed lanes alike; amounts >= width are outside the defined domain. A u32 scalar shift amount below the width behaves as the same amount in every lane.", "quantifier": "all widths, signedness, values and in-range shift amounts, lane-wise independent amounts", "why_tests_cant": "value space times shift amounts", "anchors": ["src/api/ops/vector_shifts.rs", "src/api/ops/scalar_shifts.rs"]}
{"id": "C15", "title": "Rotates move bits cyclically and are mutually inverse", "statement": "Bit j of lane i of rotate_left(n) is bit (j - n) mod w of lane i, for every rotation amount n (reduced modulo w), rotate_right is its inverse; for signed as well as unsigned vectors.", "quantifier": "all widths (powers of two 8..128), all values and all rotation amounts in every lane, both signednesses", "why_tests_cant": "value space times amounts; errors depend on sign bits", "anchors": ["src/api/ops/vector_rotates.rs"]}
{"id": "C16", "title": "min and max pick the smaller and larger lane", "statement": "Lane i of a.min(b) / a.max(b) is the minimum / maximum of the two lanes in the numeric order of the lane type; min(a,b) + max(a,b) is a permutation of the inputs per lane, both operations are commutative, associative, idempotent.", "quantifier": "all integer vectors; float vectors under IEEE minNum/maxNum", "why_tests_cant": "value space; algebraic laws over all triples", "anchors": ["src/api/ops/vector_int_min_max.rs", "src/api/ops/vector_float_min_max.rs"]}
{"id": "C17", "title": "Mask operators implement Boolean algebra", "statement": "For masks, lane i of !a, a&b, a|b, a^b as read by extract is the Boolean operation on the lanes read by extract, also with a scalar bool operand on either side.", "quantifier": "all mask vectors (reachable ones), all lane counts/widths", "why_tests_cant": "2^lanes mask combinations and all widths", "anchors": ["src/api/ops/vector_mask_bitwise.rs", "src/api/ops/scalar_mask_bitwise.rs"]}
{"id": "C18", "title": "Vertical comparisons agree with the scalar comparison of each lane", "statement": "Lane i of a.eq(b), ne, lt, le, gt, ge is true iff the scalar comparison of lane i holds: integer order by signedness, IEEE comparison for floats (NaN unequal to all and unordered), false < true for masks, unsigned address order for pointers.", "quantifier": "all element kinds, widths, lane counts and values", "why_tests_cant": "value space; signed/unsigned/NaN/mask corner cases", "anchors": ["src/api/cmp/vertical.rs", "src/api/minimal/ptr.rs:eq,lt", "src/masks.rs"]}
{"id": "C19", "title": "== and != on vectors", "statement": "a == b iff every lane compares equal; a != b iff it is not the case that a == b; == is reflexive, symmetric and transitive for integers, masks and pointers; for floats it fails exactly when some lane pair differs or contains NaN.", "quantifier": "all vectors, all targets (== is implemented through per-target mask reductions)", "why_tests_cant": "value space times targets", "anchors": ["src/api/cmp/partial_eq.rs", "src/api/cmp/eq.rs", "src/codegen/reductions/mask.rs"]}
{"id": "C20", "title": "Lexicographic ordering is a total order equal to the array order", "statement": "For integer and mask vectors, `a.lex_ord().cmp(b.lex_ord())` equals the lexicographic comparison of the lane arrays, is a total order consistent with ==, agrees with <, <=, >, >=, and never reaches the branch the implementation marks as unreachable.", "quantifier": "all vectors, lane counts, targets", "why_tests_cant": "order laws quantify over all triples", "anchors": ["src/api/cmp/partial_ord.rs", "src/api/cmp/ord.rs"]}
{"id": "C21", "title": "Float lexicographic partial order equals the array partial order", "statement": "For float vectors partial_cmp of lex_ord equals the lexicographic partial comparison of the lane arrays: decided at the first lane pair that is not equal, None iff that pair is unordered; <,<=,>,>= are consistent with it.", "quantifier": "all float vectors including NaN, infinities, signed zeros", "why_tests_cant": "NaN placement and value space", "anchors": ["src/api/cmp/partial_ord.rs"]}
{"id": "C22", "title": "all/any/none are the lane quantifiers on every target", "statement": "For every mask, all() is true iff every lane is true, any() iff some lane is true, none() iff no lane is true, whatever implementation (x86 movemask/testc/testz, ARM pairwise min/max, AArch64 across-vector min/max, integer-transmute fallback, recursion on halves, intrinsic) the target selects.", "quantifier": "all 2^lanes masks of every mask type, every target architecture and feature set", "why_tests_cant": "up to 2^64 masks and a matrix of targets that no single CI machine can run", "anchors": ["src/codegen/reductions/mask.rs", "src/codegen/reductions/mask/x86.rs", "src/codegen/reductions/mask/arm.rs", "src/codegen/reductions/mask/aarch64.rs", "src/codegen/reductions/mask/fallback_impl.rs", "src/api/reductions/mask.rs"]}
{"id": "C23", "title": "wrapping_sum and wrapping_product are sum and product modulo 2^w in any order", "statement": "wrapping_sum/product return the lane-type value congruent modulo 2^w to the exact sum/product of the lanes, on every target, and equal the documented tree-shaped evaluation and any permutation of lanes.", "quantifier": "all integer vectors, power-of-two lane counts, all targets", "why_tests_cant": "value space; order independence is a universally quantified law", "anchors": ["src/api/reductions/integer_arithmetic.rs"]}
{"id": "C24", "title": "and/or/xor reductions", "statement": "Bit j of and()/or()/xor() is the conjunction/disjunction/parity of bit j over all lanes, on every target; for masks the returned bool is the conjunction/disjunction/parity of the lanes.", "quantifier": "all vectors, all targets", "why_tests_cant": "value space times targets", "anchors": ["src/api/reductions/bitwise.rs"]}
{"id": "C25", "title": "min_element and max_element", "statement": "max_element returns a value that occurs in some lane and is >= every lane (min_element dually), in the numeric order of the lane type, on every target.", "quantifier": "all integer vectors, all targets", "why_tests_cant": "value space times targets", "anchors": ["src/api/reductions/min_max.rs"]}
{"id": "C26", "title": "Float sum/product evaluation order", "statement": "sum()/product() evaluates the documented tree-like reduction ((x0+x1)+(x2+x3)) on every target.", "quantifier": "all float vectors, all targets", "why_tests_cant": "rounding differences appear only for particular inputs", "anchors": ["src/api/reductions/float_arithmetic.rs"]}
{"id": "C27", "title": "bitmask packs lane sign bits", "statement": "Bit i of bitmask() is the most significant bit of lane i (for masks: lane i is true), for i < lanes, and every bit beyond the lane count is zero; hence masks are determined by their bitmask.", "quantifier": "all vectors, lane counts up to 64", "why_tests_cant": "2^64 masks", "anchors": ["src/api/bitmask.rs"]}
{"id": "C28", "title": "select merges lane-wise", "statement": "Lane i of m.select(a,b) is lane i of a when m's lane i is true and lane i of b otherwise; selecting with !m swaps the arguments.", "quantifier": "all masks, all vectors of matching lane count of any element width", "why_tests_cant": "value space", "anchors": ["src/api/select.rs"]}
{"id": "C29", "title": "shuffle! picks lanes by constant indices", "statement": "Lane k of shuffle!(a,b,[i0,..,iM-1]) is lane ik of the concatenation a++b; with one vector it is lane ik of that vector; an index list outside the range is rejected at compile time; composing shuffles composes index maps.", "quantifier": "all index lists, all vectors, all lane counts", "why_tests_cant": "index lists range over (2N)^M possibilities", "anchors": ["src/api/shuffle.rs", "src/codegen/shuffle.rs"]}
{"id": "C30", "title": "shuffle1_dyn picks lanes by run-time indices", "statement": "For index vectors whose lanes are all < lanes(), lane k of v.shuffle1_dyn(idx) is lane idx[k] of v, whatever implementation (scalar loop, table lookup, byte-shuffle with scaled indices, float permute) the target selects.", "quantifier": "all vectors, all in-range index vectors, all targets and byte orders", "why_tests_cant": "N^N index vectors, times targets", "anchors": ["src/codegen/shuffle1_dyn.rs", "src/api/shuffle1_dyn.rs"]}
{"id": "C31", "title": "shuffle1_dyn with an out-of-range index behaves the same on all targets", "statement": "With some index >= lanes() every target gives the same outcome (the portable implementation panics).", "quantifier": "all index vectors with an out-of-range lane, all targets", "why_tests_cant": "no single machine runs two targets", "anchors": ["src/codegen/shuffle1_dyn.rs"]}
{"id": "C32", "title": "swap_bytes reverses the byte order and endian conversions are inverse", "statement": "swap_bytes reverses the bytes of the vector; applying it twice is the identity; to_le/from_le and to_be/from_be are mutually inverse on every target; to_be is the identity on big-endian and to_le on little-endian targets; exactly one of to_le,to_be swaps.", "quantifier": "all vectors, both byte orders", "why_tests_cant": "value space; only one byte order is testable per machine", "anchors": ["src/api/swap_bytes.rs", "src/codegen/swap_bytes.rs"]}
{"id": "C33", "title": "swap_bytes reverses the bytes of each lane", "statement": "As for the scalar method of the same name, v.swap_bytes() equals lane-wise swap_bytes.", "quantifier": "all vectors", "why_tests_cant": "value space", "anchors": ["src/api/swap_bytes.rs", "src/codegen/swap_bytes.rs"]}
{"id": "C34", "title": "count_ones/count_zeros/leading/trailing zeros", "statement": "Lane i of count_ones is the number of set bits of lane i, count_zeros = w - count_ones, leading_zeros the length of the maximal run of zero bits from the top, trailing_zeros from the bottom, with w for zero lanes; on every target.", "quantifier": "all integer vectors, all targets (intrinsic and loop implementations)", "why_tests_cant": "value space times targets", "anchors": ["src/api/bit_manip.rs", "src/codegen/bit_manip.rs"]}
{"id": "C35", "title": "From between vectors is lossless", "statement": "Every provided From conversion between numeric vectors preserves the mathematical value of each lane; between masks it preserves the truth value of each lane.", "quantifier": "every From impl, every vector value", "why_tests_cant": "value space times impl table", "anchors": ["src/api/from/from_vector.rs", "src/v16.rs..v512.rs"]}
{"id": "C36", "title": "cast between integer vectors", "statement": "cast yields in each lane the target-type value congruent to the source value modulo 2^(target width): same width is a bit-level no-op, narrowing truncates, widening zero-extends unsigned and sign-extends signed; widening then narrowing back is the identity.", "quantifier": "every FromCast impl between integer vectors, every value", "why_tests_cant": "value space times impl table", "anchors": ["src/api/cast.rs", "src/api/cast/macros.rs", "src/api/cast/v16.rs..v512.rs"]}
{"id": "C37", "title": "cast to a mask tests for non-zero", "statement": "Casting a vector to a mask gives true exactly in the lanes that differ from zero, as a valid mask; casting a mask to an integer vector gives all ones / zero; mask to mask casts preserve lanes.", "quantifier": "every FromCast impl producing or consuming masks, every value", "why_tests_cant": "value space times impl table", "anchors": ["src/api/cast/macros.rs:impl_from_cast_mask_", "src/api/cast/v128.rs"]}
{"id": "C38", "title": "into_bits is a value-preserving reinterpretation and never makes an invalid mask", "statement": "Every FromBits impl is between types of equal size; into_bits preserves all bytes in memory order, so converting there and back is the identity; every impl with a mask target maps valid masks to valid masks with each narrow lane equal to the wide lane covering it.", "quantifier": "every FromBits impl, every value, both byte orders", "why_tests_cant": "value space times impl table times byte order", "anchors": ["src/api/into_bits.rs", "src/api/into_bits/"]}
{"id": "C39", "title": "Pointer vector arithmetic", "statement": "Lane i of p.offset(c)/wrapping_offset(c) is the address p_i + c_i*size modulo 2^w; add(c).sub(c) and wrapping_add(c).wrapping_sub(c) give back p; add agrees with offset of the same count.", "quantifier": "all addresses, all counts (including overflow), all pointee sizes and pointer widths", "why_tests_cant": "address space", "anchors": ["src/api/minimal/ptr.rs:offset,wrapping_offset,add,sub,wrapping_add,wrapping_sub"]}
{"id": "C40", "title": "offset_from is the inverse of offset", "statement": "p.offset(c).offset_from(p) = c for in-bounds counts and p.offset_from(origin) is the signed distance from origin to p, as documented.", "quantifier": "all addresses, counts with c*size representable, all non-zero pointee sizes", "why_tests_cant": "address space; sign errors are symmetric around 0", "anchors": ["src/api/minimal/ptr.rs:offset_from,wrapping_offset_from"]}
{"id": "C41", "title": "null, is_null and pointer equality", "statement": "Every lane of null() is the null address, is_null is true exactly in the lanes holding address 0, default() is null(), pointer == is address equality of all lanes.", "quantifier": "all addresses, lanes, targets", "why_tests_cant": "address space", "anchors": ["src/api/minimal/ptr.rs:null,is_null,eq"]}
{"id": "C42", "title": "Masked gather reads only enabled lanes", "statement": "p.read(mask, value) returns in lane i the memory element at p_i when mask lane i is true and value_i otherwise; lanes whose mask is false are never dereferenced, so arbitrary (even null) addresses there cause no fault; memory is not modified.", "quantifier": "all memories, address vectors, masks, values", "why_tests_cant": "memory states are unbounded", "anchors": ["src/api/ptr/gather_scatter.rs:read"]}
{"id": "C43", "title": "Masked scatter writes only enabled lanes, last lane wins", "statement": "p.write(mask, value) stores value_i at p_i for each true lane, in lane order so that the highest enabled lane wins on equal addresses, changes no other memory, and never touches addresses of false lanes; gather after scatter with distinct addresses returns the stored lanes.", "quantifier": "all memories, address vectors, masks, values", "why_tests_cant": "memory states and aliasing patterns are unbounded", "anchors": ["src/api/ptr/gather_scatter.rs:write"]}
{"id": "C44", "title": "Formatting prints the type name and all lanes in order", "statement": "Debug/hex/octal/binary output is `name(l0, l1, .., lN-1)` with each lane formatted by the scalar formatter; for lane formats free of separators, distinct lane texts give distinct output.", "quantifier": "all vectors, lane counts, scalar formatters", "why_tests_cant": "value space; injectivity is a universal claim", "anchors": ["src/api/fmt/debug.rs", "src/api/fmt/lower_hex.rs", "src/api/fmt/upper_hex.rs", "src/api/fmt/octal.rs", "src/api/fmt/binary.rs", "src/api/minimal/ptr.rs:Debug"]}
{"id": "C45", "title": "is_nan / is_infinite / is_finite classify every float lane", "statement": "Each lane is exactly one of: NaN (exponent all ones, non-zero fraction), infinite (exponent all ones, zero fraction), finite (other exponent), and the three predicates report it.", "quantifier": "all 2^32 / 2^64 bit patterns per lane, all lanes", "why_tests_cant": "bit pattern space", "anchors": ["src/api/math/float.rs"]}
{"id": "C46", "title": "Math functions are lane-wise regardless of how the vector is split", "statement": "Every unary/binary/ternary math method returns in lane i the scalar function of lane i, whether the target evaluates it as one vector, a scalar loop, two halves, four quarters, or by doubling the vector; in particular no lane depends on uninitialised padding. The library function used is the one the method is named after, with an error of at most 1 unit in the last place by its own documentation (3.5 for the estimate sqrte; the exactly specified abs, sqrt, mul_add and mul_adde use no approximation).", "quantifier": "all vectors, all targets/feature sets, any scalar function", "why_tests_cant": "targets times values; uninitialised data is not deterministic in tests", "anchors": ["src/codegen/math/float/macros.rs", "src/codegen/math/float/*.rs"]}
{"id": "C47", "title": "sin_cos_pi returns the sine and the cosine of each lane", "statement": "The two vectors returned by sin_cos_pi are lane-wise sin(pi x) and cos(pi x) on every target.", "quantifier": "all float vectors, all targets", "why_tests_cant": "the failing target/type combination reads uninitialised memory", "anchors": ["src/codegen/math/float/sin_cos_pi.rs", "src/api/math/float/sin_cos_pi.rs"]}
{"id": "C48", "title": "Iterator sum and product of vectors", "statement": "Summing (multiplying) an iterator of integer vectors gives in each lane the wrapping sum (product) of that lane over all items, 0 (1) for the empty iterator, for owned and borrowed items, regardless of order.", "quantifier": "all finite sequences of vectors of any length", "why_tests_cant": "sequence length is unbounded", "anchors": ["src/api/reductions/integer_arithmetic.rs:Sum,Product", "src/api/reductions/float_arithmetic.rs:Sum,Product"]}
{"id": "C49", "title": "Vectorised slice sum equals the scalar sum", "statement": "The documented idiom (accumulate N-element chunks with from_slice_unaligned, then a horizontal wrapping_sum) returns the wrapping sum of all slice elements and never panics, for slices whose length is a multiple of N; the vertical and horizontal example variants agree.", "quantifier": "all slices with length divisible by the lane count", "why_tests_cant": "slice length and contents unbounded", "anchors": ["src/lib.rs:reduce", "examples/slice_sum/src/main.rs:sum_ver,sum_hor"]}
{"id": "C50", "title": "Aligned-head slice sum covers the whole slice", "statement": "The example that sums an unaligned head with scalars and the aligned rest as vectors returns the sum of all elements, for every slice length accepted and every alignment of its start.", "quantifier": "all slices with length divisible by 8 and every start alignment", "why_tests_cant": "depends on the allocation address", "anchors": ["examples/slice_sum/src/main.rs:sum_ver_par"]}
{"id": "C51", "title": "Vectorised dot product equals the scalar dot product over a commutative ring", "statement": "In exact arithmetic the SIMD dot product of the example equals the scalar one for all equal-length slices whose length is a multiple of 4; it panics otherwise.", "quantifier": "all pairs of slices of any length", "why_tests_cant": "unbounded lengths", "anchors": ["examples/dot_product/src/simd.rs", "examples/dot_product/src/scalar.rs"]}
{"id": "C52", "title": "SIMD 4x4 matrix inverse is an inverse", "statement": "In exact arithmetic, for every 4x4 matrix with non-zero determinant the shuffle-based routine returns the matrix M' with M*M' = M'*M = 1, returns None exactly when the determinant is zero.", "quantifier": "all 4x4 matrices over a field", "why_tests_cant": "16-dimensional input space", "anchors": ["examples/matrix_inverse/src/simd.rs"]}
{"id": "C53", "title": "Lane-parallel Mandelbrot count equals the scalar escape count", "statement": "The loop that keeps iterating while some lane is still bounded and selectively increments counters returns in each lane the iteration count the scalar loop returns for that lane.", "quantifier": "all starting points, any number of iterations and lanes, any arithmetic", "why_tests_cant": "iteration counts and per-lane divergence patterns are unbounded", "anchors": ["examples/mandelbrot/src/simd_par.rs", "examples/mandelbrot/src/scalar_par.rs"]}
{"id": "C54", "title": "Struct-of-arrays packing round trip", "statement": "Packing vertices into vector form and unpacking them returns the original vertices, and the vectorised transformation commutes with it, for every number of vertices accepted.", "quantifier": "all vertex lists", "why_tests_cant": "unbounded length", "anchors": ["examples/triangle_xform/src/simd.rs", "examples/triangle_xform/src/scalar.rs"]}
{"id": "C55", "title": "Vector equality/ordering agree with element slices and hashing", "statement": "For integers and masks, ==, ordering, hashing and array conversion are mutually consistent: a == b iff arrays equal iff cmp is Equal, and then hashes are equal.", "quantifier": "all pairs of vectors, all targets", "why_tests_cant": "value space", "anchors": ["src/api/cmp/", "src/api/hash.rs", "src/api/from/from_array.rs"]}
{"id": "C56", "title": "Scalar masks behave as Booleans", "statement": "A scalar mask made from a Boolean reads back as it; ==, !=, <, <=, >, >=, partial_cmp, cmp and hashing of scalar masks agree with those of the Booleans (false < true), and cmp never reaches its unreachable branch.", "quantifier": "all mask widths, all pairs of scalar masks", "why_tests_cant": "the order is implemented by reversing a signed integer comparison at every width; the unreachable branch is undefined behaviour if ever taken", "anchors": ["src/masks.rs"]}
{"id": "C57", "title": "Float vector arithmetic is correctly rounded lane by lane", "statement": "Lane i of a+b, a-b, a*b, a/b, a%b is the exact mathematical result on lanes i, rounded to nearest with ties to even (NaN, infinities, overflow and zero divisors as in IEEE 754; % exact with the sign of the dividend); the sign of products, quotients and zero sums follows IEEE 754; unary minus flips the sign of every lane that is not NaN, including zeros; scalar operands act as if broadcast.", "quantifier": "all float formats, all lane counts, all operand bit patterns", "why_tests_cant": "2^64 or 2^128 operand pairs per lane; rounding boundaries and special values interact; unary minus is implemented as a multiplication by -1", "anchors": ["src/api/ops/vector_arithmetic.rs", "src/api/ops/scalar_arithmetic.rs", "src/api/ops/vector_neg.rs"]}
{"id": "C58", "title": "Float min_element/max_element ignore NaN", "statement": "min_element (max_element) of a float vector returns one of the lanes; it is less (greater) than or equal to every lane that is not NaN, and so is NaN only if every lane is.", "quantifier": "all float vectors, all positions and numbers of NaN lanes, all targets", "why_tests_cant": "depends on where the NaN lanes are and on the target's reduction", "anchors": ["src/api/reductions/min_max.rs"]}
{"id": "C59", "title": "Casts from and to floats convert the number", "statement": "Casting integer lanes to float lanes rounds each integer to nearest, ties to even; casting float to float keeps NaN, infinities and signs and rounds finite values to nearest even (f32 to f64 is lossless); casting float to integer lanes gives the value truncated toward zero whenever it fits the target type.", "quantifier": "all pairs of vector types with an impl, all lane bit patterns", "why_tests_cant": "2^32 or 2^64 values per lane; rounding boundaries", "anchors": ["src/api/cast/v128.rs", "src/api/cast/v256.rs", "src/api/cast/macros.rs", "src/codegen/llvm.rs:simd_cast"]}
{"id": "C60", "title": "Casts are total and safe", "statement": "cast is a safe function: for every vector of the source type it returns a vector and never has undefined behaviour.", "quantifier": "all pairs of vector types with an impl, all lane bit patterns", "why_tests_cant": "undefined behaviour is not observable by running a test; offending values are rare", "anchors": ["src/api/cast.rs", "src/api/cast/macros.rs", "src/codegen/llvm.rs:simd_cast"]}
{"id": "C61", "title": "Casts exist exactly between equal lane counts", "statement": "cast is available between two different vector types exactly when they have the same number of lanes, and by exactly one implementation.", "quantifier": "all pairs of vector types of the crate", "why_tests_cant": "a claim about every pair of types, including the absence of impls", "anchors": ["src/api/cast/macros.rs", "src/api/cast/v16.rs", "src/api/cast/v512.rs"]}
{"id": "C62", "title": "Pointer comparisons order by unsigned address", "statement": "For pointer vectors, eq/ne/lt/le/gt/ge give in lane i the truth of the corresponding comparison of the two addresses read as unsigned numbers; in particular null is the least pointer.", "quantifier": "all targets, lane counts 2, 4, 8, all address pairs", "why_tests_cant": "pairs of addresses on both sides of the sign bit must all be ordered correctly", "anchors": ["src/api/minimal/ptr.rs:eq,ne,lt,le,gt,ge"]}
{"id": "C63", "title": "mul_add is fused", "statement": "Each lane of mul_add is the exact value of self*y+z rounded once, on every target, given a library whose fma functions are correctly rounded.", "quantifier": "all float vectors, all targets and feature sets, any conforming library", "why_tests_cant": "the difference to two roundings shows only for particular operand triples, and only on some targets", "anchors": ["src/codegen/math/float/mul_add.rs", "src/codegen/math/float/macros.rs", "src/api/math/float/mul_add.rs"]}
{"id": "C64", "title": "mul_adde is at worst a multiply followed by an add", "statement": "Each lane of mul_adde is either the exact self*y+z rounded once, or the correctly rounded product followed by the correctly rounded sum.", "quantifier": "all float vectors, all targets, any library whose fmuladd does one of the two", "why_tests_cant": "rounding behaviour is target-dependent and visible only for particular operands", "anchors": ["src/codegen/math/float/mul_adde.rs", "src/api/math/float/mul_adde.rs"]}
{"id": "C65", "title": "Vector types are declared consistently", "statement": "Every vector type eNxM has M lanes of type eN, an M-argument constructor, a mask type with M lanes of the same size, a machine representation with M lanes of that size, and a bitmask integer with at least M bits.", "quantifier": "all vector types and targets", "why_tests_cant": "the declarations are spread over a dozen macro tables; no test quantifies over the types", "anchors": ["src/v16.rs", "src/v32.rs", "src/v64.rs", "src/v128.rs", "src/v256.rs", "src/v512.rs", "src/vSize.rs", "src/codegen/v512.rs"]}
{"id": "C66", "title": "shuffle! can produce every vector type", "statement": "A shuffle! of lanes of type T with N indices has the type with N lanes of type T, and one is provided for every vector type.", "quantifier": "all vector types", "why_tests_cant": "the set of provided output types is a hand-written table separate from the set of vector types", "anchors": ["src/codegen/shuffle.rs impl_shuffle", "src/api/shuffle.rs shuffle!"]}
{"id": "C67", "title": "The vectorised spectral-norm example is the scalar one", "statement": "For every size, target and build profile, the vectorised spectral-norm program returns bit for bit what the scalar one returns, and panics exactly when it does.", "quantifier": "all sizes, targets, arithmetics with 0 + sum = sum (in particular IEEE binary64), with and without overflow checks", "why_tests_cant": "the benchmark is checked for one size on one target; the two programs accumulate in different structures", "anchors": ["examples/spectral_norm/src/scalar.rs", "examples/spectral_norm/src/simd.rs", "examples/spectral_norm/src/lib.rs A"]}
{"id": "C68", "title": "The spectral-norm example computes twenty power-iteration steps", "statement": "In exact arithmetic both spectral-norm programs return sqrt((u.v)/(v.v)) for u = (M^T M)^20 1 and v = (M^T M)^19 1 where M is the benchmark's matrix, for every even size whose index arithmetic fits a usize; odd sizes panic.", "quantifier": "all fields, even sizes, targets, build profiles", "why_tests_cant": "tests compare one rounded decimal for one size", "anchors": ["examples/spectral_norm/src/scalar.rs", "examples/spectral_norm/src/simd.rs", "examples/spectral_norm/src/lib.rs A"]}
{"id": "C69", "title": "Vector pricing kernels agree with the scalar ones", "statement": "Each lane of the vectorised Black-Scholes kernel is bit for bit what the scalar program computes for that lane's option; each lane of the vectorised binomial kernel is what the scalar one computes in exact arithmetic.", "quantifier": "all inputs (including NaN and infinities), lane counts, and library functions exp, ln, sqrt, powf", "why_tests_cant": "tests price one option repeated a million times", "anchors": ["examples/options_pricing/src/scalar.rs", "examples/options_pricing/src/simd.rs", "examples/options_pricing/src/simd_kernels.rs"]}
{"id": "C70", "title": "The vectorised pricing driver prices every option once", "statement": "With slices of at least count elements and count and result.len() multiples of the lane count, the vectorised driver writes the price of option i to result[i] for i < count, leaves the other elements unchanged and returns a sum of exactly the elements of result; scalar and vectorised drivers leave identical results; other lengths panic.", "quantifier": "all inputs, counts, targets, build profiles", "why_tests_cant": "unbounded input sizes; only one constant input is tested", "anchors": ["examples/options_pricing/src/scalar.rs", "examples/options_pricing/src/simd.rs", "examples/options_pricing/src/simd_kernels.rs"]}
{"id": "C71", "title": "The parallel pricing driver prices the same options as the serial one", "statement": "For every order in which its tasks run, the parallel driver has the same effect and result as the serial driver.", "quantifier": "all inputs and all task orders", "why_tests_cant": "the example's inputs are constant arrays, for which a wrong index goes unnoticed; schedules cannot be enumerated", "anchors": ["examples/options_pricing/src/simd_par.rs parallel", "examples/options_pricing/src/simd.rs serial"]}
{"id": "C72", "title": "The binomial kernel computes the discounted binomial expectation", "statement": "In exact arithmetic the binomial pricing kernel returns the discounted expected payoff of the put under the binomial distribution with the risk-neutral up-probability; the normal-distribution approximation satisfies cnd(x) = 1 - cnd(-x) for x > 0.", "quantifier": "all option parameters", "why_tests_cant": "the in-place lattice update must be right for all 63 levels and all values", "anchors": ["examples/options_pricing/src/scalar.rs", "examples/options_pricing/src/simd.rs", "examples/options_pricing/src/simd_kernels.rs"]}
{"id": "C73", "title": "The safe pricing functions have no undefined behaviour", "statement": "Calling the safe vectorised pricing functions with slices shorter than count panics and never has undefined behaviour.", "quantifier": "all slice lengths, counts and build profiles", "why_tests_cant": "undefined behaviour is not observable by tests", "anchors": ["examples/options_pricing/src/scalar.rs", "examples/options_pricing/src/simd.rs", "examples/options_pricing/src/simd_kernels.rs"]}
{"id": "C74", "title": "All stencil programs compute the same time steps", "statement": "For every box inside the grid, the scalar, the vectorised and the parallel stencil programs succeed; at even times exactly the cells of the box in the odd grid, at odd times those in the even grid, become 2*cur - old + vsq * (weighted sum of the cell and its 18 axis neighbours), and nothing else changes. With an unfused mul_adde the three results are identical bit for bit.", "quantifier": "all grids, boxes, times, cell values (NaN and signed zero included), lane counts, task orders", "why_tests_cant": "unbounded grids and schedules; tests compare two sizes with a tolerance", "anchors": ["examples/stencil/src/scalar.rs", "examples/stencil/src/simd.rs", "examples/stencil/src/simd_par.rs"]}
{"id": "C75", "title": "The parallel stencil result does not depend on the schedule", "statement": "Whatever the order in which the tasks of each time step run, the parallel stencil program leaves exactly the values the sequential vectorised one leaves, also when mul_adde is fused.", "quantifier": "all task orders, grids, values and lane arithmetics", "why_tests_cant": "schedules cannot be enumerated", "anchors": ["examples/stencil/src/simd_par.rs x8_par_impl", "examples/stencil/src/simd.rs x8_impl, step_x8"]}
{"id": "C76", "title": "The safe stencil functions have no undefined behaviour", "statement": "Calling the scalar, vectorised or parallel stencil function with any box, grid size and slices never has undefined behaviour; a box outside the grid panics.", "quantifier": "all arguments", "why_tests_cant": "undefined behaviour is not observable by tests", "anchors": ["examples/stencil/src/scalar.rs", "examples/stencil/src/simd.rs", "examples/stencil/src/simd_par.rs"]}
{"id": "C77", "title": "Creating stencil data initialises every cell", "statement": "Data::new and reinit set every cell of both grids and of vsq to its documented initial value, and never have undefined behaviour.", "quantifier": "all grid sizes and build profiles", "why_tests_cant": "unbounded sizes; integer overflow depends on the build profile", "anchors": ["examples/stencil/src/lib.rs Data::new, Data::reinit"]}
{"id": "C78", "title": "Flipping a fannkuch arrangement ends", "statement": "For every arrangement of the cards 1..n, repeatedly reversing the first k cards (k the first card) puts card 1 on top after a number of flips that depends only on the arrangement and is below 2^(n-1); the flipping loops of the scalar and the SIMD program return that number, the SIMD one on every target.", "quantifier": "all n from 1 to 16, all arrangements, all contents of the array beyond the first n elements, all targets and build profiles", "why_tests_cant": "n! arrangements; termination is not testable", "anchors": ["examples/fannkuch_redux/src/scalar.rs work, Perm, next_permutation, rotate", "examples/fannkuch_redux/src/simd.rs State::tk, popmasks, rotate"]}
{"id": "C79", "title": "Fannkuch generates every arrangement exactly once", "statement": "The numbering of arrangements by the benchmark is a bijection between the numbers below n! and the arrangements of n cards, and the scalar generator, started at number k and advanced j times, holds arrangement number k + j.", "quantifier": "all n (generator: 1 to 12), all start numbers and all numbers of advances", "why_tests_cant": "n! arrangements and all starting points", "anchors": ["examples/fannkuch_redux/src/scalar.rs work, Perm, next_permutation, rotate"]}
{"id": "C80", "title": "Both fannkuch programs compute the benchmark's answer and agree", "statement": "fannkuch_redux(n, alg) ends and returns the alternating sum of the flip counts over all arrangements in order (as i32) and the largest flip count, so algorithms 0 and 1 return the same pair; the scalar program does so for any number of worker threads dividing n!.", "quantifier": "n from 1 to 16 (SIMD) or 12 (scalar) without overflow checks, 1 to 10 with them; all targets; all thread counts dividing n!", "why_tests_cant": "the largest sizes take 16! arrangements; agreement over every path of the buffered SIMD evaluation", "anchors": ["examples/fannkuch_redux/src/scalar.rs work, Perm, next_permutation, rotate", "examples/fannkuch_redux/src/simd.rs State::tk, popmasks, rotate", "examples/fannkuch_redux/src/lib.rs fannkuch_redux"]}
{"id": "C81", "title": "The fannkuch program works for every size it accepts", "statement": "For every number of cards from 3 to 14, the sizes main accepts, both algorithms print the benchmark's answer; other sizes and unknown algorithms panic.", "quantifier": "all sizes, algorithms and build profiles", "why_tests_cant": "13! and 14! arrangements cannot be enumerated in a test", "anchors": ["examples/fannkuch_redux/src/main.rs main", "examples/fannkuch_redux/src/scalar.rs Perm::new"]}
{"id": "C82", "title": "The N-body step is the symplectic Euler step in both programs", "statement": "One advance changes every velocity by dt times the attraction of all other bodies computed from the old positions, then every position by dt times the new velocity; the in-place pairwise updates of the scalar program and the two-pass, pair-indexed SIMD program have exactly this effect, the SIMD program's fourth lane stays zero and it never panics.", "quantifier": "any number of bodies (SIMD: with an even number of pairs), any positions, velocities, masses, dt and target, in exact arithmetic", "why_tests_cant": "a test checks one energy after 1000 steps of one table; the update order and pair indexing matter for every state", "anchors": ["examples/nbody/src/scalar.rs advance", "examples/nbody/src/simd.rs advance"]}
{"id": "C83", "title": "Total momentum is zero in every state of an N-body run", "statement": "After offset_momentum (the first body being at rest with mass SOLAR_MASS) the momenta of the bodies add up to zero, and still do after any number of steps of any length.", "quantifier": "all tables of bodies, numbers of steps, dt, targets, in exact arithmetic", "why_tests_cant": "invariant over executions of unbounded length", "anchors": ["examples/nbody/src/scalar.rs offset_momentum, advance", "examples/nbody/src/simd.rs offset_momentum, advance"]}
{"id": "C84", "title": "Both energy functions return kinetic plus potential energy", "statement": "energy returns the sum of m v^2 / 2 over all bodies minus the sum of m m' / distance over all unordered pairs.", "quantifier": "any number of bodies in any state, all targets, in exact arithmetic", "why_tests_cant": "must hold for every state", "anchors": ["examples/nbody/src/scalar.rs energy", "examples/nbody/src/simd.rs energy"]}
{"id": "C85", "title": "The N-body algorithms agree", "statement": "run(n, 0) and run(n, 1) return the same two energies for every n, namely those of the tabulated solar system seen from its centre of mass, before and after n steps of 0.01; every other algorithm number panics.", "quantifier": "all n, algorithm numbers and targets, in exact arithmetic with any square root function", "why_tests_cant": "agreement for every number of steps; floats only agree to some digits", "anchors": ["examples/nbody/src/lib.rs run", "examples/nbody/src/scalar.rs run, BODIES", "examples/nbody/src/simd.rs run, run_k, BODIES"]}
{"id": "C86", "title": "No N-body run panics", "statement": "run(n, 0) and run(n, 1) return for every n on every target, in whatever arithmetic: no array index, slice write or reduction goes out of bounds.", "quantifier": "all n, targets and lane arithmetics (f64 included)", "why_tests_cant": "holds for every number of steps and whatever values arise, NaN included", "anchors": ["examples/nbody/src/lib.rs run", "examples/nbody/src/simd.rs advance, energy, offset_momentum"]}
{"id": "C87", "title": "The vector random generator runs one scalar generator per lane", "statement": "The aobench vector generator seeded with a vector of seeds returns, on every call and in every lane, bit for bit the number the scalar generator seeded with that lane's seed returns on the same call; it never fails.", "quantifier": "every number of lanes, every seed vector, every call number", "why_tests_cant": "the claim covers 2^32 seeds per lane and an unbounded number of calls", "anchors": ["examples/aobench/src/random.rs: scalar::RngT, vector::RngT, from_seed, gen"]}
{"id": "C88", "title": "The generator is LFSR113", "statement": "The 32-bit outputs of the aobench generator are those of LFSR113: each output bit is the exclusive or of four bit sequences satisfying linear recurrences of orders 31, 29, 28 and 25, advanced by 18, 2, 7 and 13 places per call and started with the seed, the seed xor 0xbeeff00d, the seed with halves swapped and the seed with bytes reversed.", "quantifier": "every state or seed, every call number, every bit", "why_tests_cant": "an unbounded sequence from 2^32 seeds; a test only sees a prefix of a few", "anchors": ["examples/aobench/src/random.rs: gen_u32, from_seed"]}
{"id": "C89", "title": "No register of the generator is empty", "statement": "The generators handed out by thread_rng satisfy the seeding requirement of LFSR113 (no shift register is all zeros), now and after any number of calls.", "quantifier": "every call number, both thread generators, every lane", "why_tests_cant": "an empty register still produces numbers that look random to a test", "anchors": ["examples/aobench/src/random.rs: scalar::thread_rng, vector::thread_rng, gen_u32"]}
{"id": "C90", "title": "Random numbers lie in [0, 1) and are multiples of 2^-23", "statement": "From any state the generator returns exactly k / 2^23, where k is the low 23 bits of the 32-bit output: never a NaN, never negative, never 1 or more.", "quantifier": "every state of the generator", "why_tests_cant": "2^113 states; a rounding to 1.0 would be rare", "anchors": ["examples/aobench/src/random.rs: gen"]}
{"id": "C91", "title": "Lanes of a ray packet do not influence each other", "statement": "Intersecting a packet of rays with a plane or a sphere computes in each lane a result that depends only on that lane of the rays and of the previous result, whatever the arithmetic; a lane that gets no closer hit keeps its previous result unchanged.", "quantifier": "every plane, sphere, packet width, packet of rays, previous result and lane arithmetic", "why_tests_cant": "the early exits (`any`) look at all lanes; every mixture of lanes must behave alike", "anchors": ["examples/aobench/src/intersection/ray_plane.rs: RayxN::intersect", "examples/aobench/src/intersection/ray_sphere.rs: RayxN::intersect"]}
{"id": "C92", "title": "A ray packet is its rays (exact arithmetic)", "statement": "Without rounding errors, intersecting a packet with a plane or a sphere gives in every lane exactly what intersecting that single ray gives, in debug and release builds, without panicking.", "quantifier": "every ordered field, square root function, plane, sphere, packet and previous result", "why_tests_cant": "the vector code is a different program (fused operations, masks, early exits)", "anchors": ["examples/aobench/src/intersection/ray_plane.rs", "examples/aobench/src/intersection/ray_sphere.rs", "examples/aobench/src/geometry/vecxN.rs"]}
{"id": "C93", "title": "Debug assertions of packet intersection never fire", "statement": "In a debug build, intersecting a packet of rays with a plane or a sphere never panics.", "quantifier": "every packet, surface and previous result in f32", "why_tests_cant": "the failing rays are those that just touch a sphere, where the two programs round differently", "anchors": ["examples/aobench/src/intersection/ray_sphere.rs: debug_assert in RayxN::intersect", "examples/aobench/src/intersection/ray_plane.rs", "examples/aobench/src/intersection/single.rs: almost_eq"]}
{"id": "C94", "title": "Ray intersection is geometrically right", "statement": "For a ray of unit direction, a sphere is reported hit exactly if the first of two common points lies in front of the origin and nearer than the previous hit, with that point and the outward unit normal there; a touching or missing ray changes nothing. A plane not almost parallel to the ray is reported hit exactly if the one common point lies in front and nearer; otherwise nothing changes.", "quantifier": "all real rays, spheres, planes and previous hits", "why_tests_cant": "continuum of rays; sign errors show only for some configurations", "anchors": ["examples/aobench/src/intersection/ray_plane.rs: Ray::intersect", "examples/aobench/src/intersection/ray_sphere.rs: Ray::intersect"]}
{"id": "C95", "title": "Casting a ray finds the nearest surface", "statement": "Intersecting a ray with all spheres and the plane of a scene reports a hit exactly if the ray meets the scene below parameter 10^17, at the smallest such parameter, with the point and normal of the surface there.", "quantifier": "all real rays of unit direction, planes and lists of spheres", "why_tests_cant": "arbitrary numbers and orders of spheres", "anchors": ["examples/aobench/src/ambient_occlusion.rs", "examples/aobench/src/scalar.rs: ao", "examples/aobench/src/intersection/single.rs"]}
{"id": "C96", "title": "The basis built on a normal is orthonormal", "statement": "For every unit normal the three vectors of ortho_basis are unit vectors, mutually perpendicular and right-handed, and the third is the normal.", "quantifier": "every unit vector of real space", "why_tests_cant": "continuum of normals and a case distinction on them", "anchors": ["examples/aobench/src/geometry/vec.rs: ortho_basis"]}
{"id": "C97", "title": "Sample directions lie on the hemisphere of the normal", "statement": "For random numbers r1 in [0,1] and r2, the direction of an ambient-occlusion sample is a unit vector whose component along the normal is sqrt(1 - r1) >= 0 and whose other two components are sqrt(r1) cos(2 pi r2) and sqrt(r1) sin(2 pi r2).", "quantifier": "every unit normal, every r1 in [0,1], every real r2", "why_tests_cant": "continuum of inputs", "anchors": ["examples/aobench/src/ambient_occlusion.rs: scalar", "examples/aobench/src/geometry/vec.rs: Mul<V3D> for M3x3"]}
{"id": "C98", "title": "Vectorized ambient occlusion equals the scalar one", "statement": "In exact arithmetic the vectorized ambient occlusion of a surface point returns the same value as the scalar one and leaves the scene in the same state (or both fail alike), for every scene that uses the default rand_f32xN and whose number of samples is a multiple of the number of lanes.", "quantifier": "all scenes, scene states, points, targets, lane counts dividing the number of samples, debug and release builds", "why_tests_cant": "the scene state and the random numbers are arbitrary; a test runs one scene with one seed", "anchors": ["examples/aobench/src/ambient_occlusion.rs: scalar, vector", "examples/aobench/src/scene/mod.rs: Scene::rand_f32xN"]}
{"id": "C99", "title": "Each lane of the tiled ambient occlusion is a scalar ambient occlusion", "statement": "In exact arithmetic lane i of the tiled ambient occlusion of n surface points is what the scalar ambient occlusion returns for point i with the random numbers of lane i, consumed in the same order; it uses exactly one pair of random vectors per sample and fails exactly if drawing fails.", "quantifier": "all scenes, scene states, packets of points, lane counts, debug and release builds", "why_tests_cant": "infinitely many packets and random sequences", "anchors": ["examples/aobench/src/ambient_occlusion.rs: vector_tiled, scalar"]}
{"id": "C100", "title": "Ambient occlusion on f32 is an exact multiple of 1/64 between 0 and 1", "statement": "With 8 x 8 samples on f32 the scalar, the vectorized (lane count dividing 8) and every lane of the tiled ambient occlusion is exactly 1 - k/64 with a whole k from 0 to 64, so a finite number in [0,1]; in the scalar algorithm k is the number of sample rays that hit something. Nothing is rounded in counting, whatever the order in which the lanes are summed.", "quantifier": "all scenes with 8 x 8 samples, states, points (with NaN and infinite coordinates too), targets, and implementations of the mathematical functions", "why_tests_cant": "the point and the random numbers are arbitrary floats", "anchors": ["examples/aobench/src/ambient_occlusion.rs: scalar, vector, vector_tiled"]}
{"id": "C101", "title": "The test scene is a cyclic source of 128 numbers and is left unchanged by ambient occlusion", "statement": "A new test scene holds 128 random numbers; drawing never panics and delivers the numbers cyclically. Each ambient occlusion (scalar; vectorized with a lane count dividing 8, tiled with any lane count, in release builds) succeeds and leaves the scene exactly as it was, so that every point of the image sees the same random numbers in whatever order points are processed.", "quantifier": "all test scene states reachable, all points and packets of points, any arithmetic", "why_tests_cant": "any number of draws from any position", "anchors": ["examples/aobench/src/scene/test.rs: Test::default, Test::rand", "examples/aobench/src/ambient_occlusion.rs: scalar, vector, vector_tiled"]}
{"id": "C102", "title": "The scalar renderer adds up the samples of each pixel and divides by their number", "statement": "Rendering a grey image with scalar::ao changes each pixel, in the order of the pixels, in all three colours, to (old value + sum of its ns x ns samples in order) / ns^2, panics nowhere and accesses only its own three elements per pixel; it fails only if the scene fails to deliver a random number. In exact arithmetic the ray of a sample goes through the point of the image plane in front of the eye that corresponds to its position in the picture (height 2, centre straight ahead, rows going down).", "quantifier": "all widths, heights, sample counts, scenes, old grey images, any arithmetic", "why_tests_cant": "every image size and every scene", "anchors": ["examples/aobench/src/scalar.rs: ao"]}
{"id": "C103", "title": "The vectorized renderer draws the picture the scalar one draws", "statement": "vector::ao adds to each pixel the samples multiplied twice with 1/ns. In exact arithmetic, on a new image and with a scene using the default packet of random numbers and a number of samples divisible by the lane count, the image and the final state of the scene are those of scalar::ao.", "quantifier": "all sizes, sample counts, scenes, targets, build modes, lane counts", "why_tests_cant": "image equality for every size and every sequence of random numbers", "anchors": ["examples/aobench/src/vector.rs: ao_impl", "examples/aobench/src/scalar.rs: ao"]}
{"id": "C104", "title": "The tiled renderer renders packets of neighbouring pixels", "statement": "tiled::ao panics if the width is no multiple of the lane count; otherwise it changes each packet of neighbouring pixels by its samples in order: nothing if no ray of the packet hits, otherwise the lanes that hit increase by their occlusion / ns^2 in all three colours and the others stay. In exact arithmetic lane i does what the scalar renderer does for the pixel i places to the right, with the random numbers of its lane.", "quantifier": "all sizes, lane counts, scenes, images, build modes, any arithmetic", "why_tests_cant": "every image size and every mask of hits", "anchors": ["examples/aobench/src/tiled.rs: ao_impl", "examples/aobench/src/geometry/mod.rs: IncrV"]}
{"id": "C105", "title": "The tiled renderers access nothing outside the image and never race", "statement": "Gather and scatter through raw pointers in tiled::ao touch only the first 3*w*h elements of the buffer; tiled_parallel::ao, although it accesses the whole buffer through a pointer, is free of data races and of accesses outside the buffer for every buffer length and in every interleaving of its threads.", "quantifier": "all sizes, buffer lengths, scenes, distributions of rows to threads, interleavings", "why_tests_cant": "quantifies over all schedules of the worker threads and all buffers", "anchors": ["examples/aobench/src/tiled.rs: ao_impl", "examples/aobench/src/tiled_parallel.rs: ao_impl", "examples/aobench/src/image.rs: Image"]}
{"id": "C106", "title": "Parallel rendering does not depend on the schedule", "statement": "However rows are distributed to threads and however the threads interleave, scalar_parallel::ao, vector_parallel::ao and tiled_parallel::ao end without race with each row as specified from the scene made for it; if scenes are all the same and are left unchanged by a ray (test scene), the picture is that of the serial renderer. An image without columns makes them panic.", "quantifier": "all sizes, scenes, distributions of rows to threads, interleavings of their memory accesses", "why_tests_cant": "quantifies over all schedules", "anchors": ["examples/aobench/src/scalar_parallel.rs: ao", "examples/aobench/src/vector_parallel.rs: ao_impl", "examples/aobench/src/tiled_parallel.rs: ao_impl"]}
{"id": "C107", "title": "On f32 every pixel is an exact multiple of 1/(64 ns^2) between 0 and 1", "statement": "Rendering a new image on f32 with 8 x 8 occlusion samples and ns a power of two up to 512 gives every pixel a grey value exactly K/(64 ns^2) with whole K from 0 to 64 ns^2, in all six renderers and every execution of the parallel ones. With ns = 0 the scalar renderer makes every pixel NaN while the other two leave it 0.", "quantifier": "all scenes with 8 x 8 samples, sizes, states, targets, schedules, implementations of the mathematical functions", "why_tests_cant": "needs exactness of every rounding for every scene", "anchors": ["examples/aobench/src/scalar.rs: ao", "examples/aobench/src/vector.rs: ao_impl", "examples/aobench/src/tiled.rs: ao_impl", "examples/aobench/src/main.rs: main"]}
{"id": "C108", "title": "write_png turns components into bytes monotonically and at the right places", "statement": "The byte of a component is 0 for NaN and values up to 0, 255 for values from 1 on, and never decreases when the component increases; for K/256 it is K-1 (0 for K=0). With soa=false byte j comes from component j; with soa=true byte 3i+c comes from component c*w*h+i, and a buffer which has not exactly 3*w*h components makes it panic.", "quantifier": "all f32 components and all image sizes", "why_tests_cant": "all 2^32 values of a component and all pairs of them", "anchors": ["examples/aobench/src/image.rs: write_png, clamp"]}
{"id": "C109", "title": "Rendering with either scene never fails in release builds", "statement": "With the random scene (and with the test scene) none of the six renderers panics, has undefined behaviour or races, whatever the states of the generators and however rows are distributed to threads, and every pixel becomes exactly K/(64 ns^2). The random scene's rand is the next number of the thread's scalar generator and lane i of rand_f32xN the next two numbers of the generator of lane i, all in [0, 1); neither touches the other generator.", "quantifier": "all generator states, image sizes (width a multiple of the lane count for the tiled ones), ns a power of two up to 512, lane counts dividing 8, targets, distributions of rows and interleavings", "why_tests_cant": "all 2^128 generator states and all schedules", "anchors": ["examples/aobench/src/scene/random.rs: Random", "examples/aobench/src/scene/test.rs: Test", "examples/aobench/src/scene/mod.rs: Scene"]}
{"id": "C110", "title": "The associated constants of float vectors are what they are documented to be", "statement": "For every float vector type, every lane of PI, FRAC_PI_2/3/4/6/8, FRAC_1_PI, FRAC_2_PI, FRAC_2_SQRT_PI, SQRT_2, FRAC_1_SQRT_2, E, LOG2_E, LOG10_E, LN_2 and LN_10 is the float of the lane type strictly nearest to the real number of that name; MAX and MIN are the greatest and least finite floats, MIN_POSITIVE the least positive normal float, EPSILON the distance from 1 to the next larger float, NAN a NaN, INFINITY and NEG_INFINITY the infinities; and the infinities tested by is_infinite and the PI used by sin_pi/cos_pi/sin_cos_pi are these constants.", "quantifier": "all float vector types, all lanes, and all floats of the lane type as competitors", "why_tests_cant": "being nearest to a transcendental number, or extremal, is a statement about every other float and about a real number no test can represent; a test can only compare with another literal", "anchors": ["src/api/math/float/consts.rs: impl_float_consts! (EPSILON .. LN_10)", "src/codegen/math/float/{sin_pi,cos_pi,sin_cos_pi}.rs: core::$elem::consts::PI", "src/api/math/float.rs: is_infinite"]}
{"id": "C111", "title": "Lanewise float arithmetic obeys the standard error model over the real numbers", "statement": "For finite lanes, + and - return the exact real result with relative error at most u (half the distance from 1 to the next float; also for subnormal results); * and /, and mul_add on targets other than s390x, return it with relative error at most u or absolute error at most half the least positive float. The result is finite exactly when the real result is below the overflow threshold (the midpoint between MAX and the next power of two) in magnitude, and otherwise an infinity of the sign of the real result. <, <= and == of finite lanes compare the real numbers.", "quantifier": "all float vector types and lanes, all finite lane values (for mul_add: all targets except s390x)", "why_tests_cant": "the bound ranges over all pairs (triples) of floats and refers to real numbers", "anchors": ["src/api/ops/vector_arithmetic.rs: impl_ops_vector_arithmetic", "src/api/math/float/mul_add.rs", "src/api/cmp/vertical.rs"]}
{"id": "C112", "title": "Vector sums and dot products are accurate whatever order they are summed in", "statement": "If the result of the horizontal sum of a float vector, of either slice sum, or of the parallel slice sum is finite, it differs from the real sum of the elements by at most ((1+u)^(n-1) - 1) times the sum of the magnitudes; if the elements are finite and the sum of magnitudes is sufficiently below the overflow threshold the result is finite. A finite result of either dot product differs from the real dot product by at most ((1+u)^n - 1) times the sum of the magnitudes of the products plus n(1+u)^(n-1) times half the least positive float.", "quantifier": "all lane counts, slice lengths and contents, targets (which fix the order of reductions) and work splits of the thread pool", "why_tests_cant": "a bound over all float slices and all summation orders", "anchors": ["src/api/reductions/float_arithmetic.rs: sum", "examples/slice_sum/src/main.rs: sum_hor, sum_ver", "examples/dot_product/src/simd.rs: dot_prod", "examples/dot_product/src/scalar.rs: dot_prod"]}
{"id": "C113", "title": "The Mandelbrot program writes readable picture files, the same bytes with either algorithm", "statement": "output_pbm writes a PBM (P4) file and output_ppm a PPM (P6) file that a reader of the format decodes to the dimensions and to the pixels of the image: black exactly where the count is the iteration limit, or the colour of the count. Run with --algo scalar and --algo simd the program writes the same bytes, those of the image of the orbits of the pixel points; if the output can take only k bytes, the first k are written and the error is reported.", "quantifier": "all widths and heights, all images, all points at which writing fails, both algorithms, both formats", "why_tests_cant": "The layout in bytes depends on the width modulo 8 and on the number of digits of the dimensions; the failure point is arbitrary; the counts come from floating-point orbits.", "anchors": ["examples/mandelbrot/src/lib.rs: Mandelbrot::generate, write_header, output_pbm, output_ppm", "examples/mandelbrot/src/main.rs: main"]}
{"id": "C114", "title": "The Mandelbrot buffers respect the contracts of Vec", "statement": "The buffers built with with_capacity, set_len and transmute hold exactly width * height counts, all within the allocation and written before they are handed out; no call breaks the documented contract of the Vec operations (length at most the capacity, elements initialised, memory freed with the layout it was allocated with).", "quantifier": "all widths and heights, all amounts of spare capacity given by the allocator", "why_tests_cant": "Breaking a contract of Vec is undefined behaviour and normally goes unnoticed in a test run.", "anchors": ["examples/mandelbrot/src/scalar_par.rs: generate", "examples/mandelbrot/src/simd_par.rs: generate"]}
{"id": "C115", "title": "Programs are portable", "statement": "A program written against the API (loops, branches, scalar code, lane-wise operators, casts, shuffles with constant indices, and calls of mask and integer reductions, whole-vector comparison, element extrema, bit counting, shuffle1_dyn with indices in range, swap_bytes, hashing and array conversions) ends with the same result, panics in the same way, or fails to end, on every supported target with the same pointer width, whatever the architecture, byte order and enabled target features. The operations that have to be left out (sum of floats, shuffle1_dyn with an index out of range, to_be/to_le, reinterpretation between lane widths) do differ.", "quantifier": "every program over these calls (unbounded loops included), every pair of supported targets with equal pointer width, every input", "why_tests_cant": "Tests run on one machine at a time; the claim is about pairs of targets, all programs and runs that need not end.", "anchors": ["src/codegen/reductions/mask.rs", "src/codegen/swap_bytes.rs:SwapBytes", "src/codegen/shuffle1_dyn.rs:Shuffle1Dyn", "src/codegen/bit_manip.rs", "src/api/reductions", "src/api/cmp", "src/api/hash.rs"]}
{"id": "C116", "title": "Parallel examples are race-free and deterministic", "statement": "The parallel example programs (the stencil's x8_par, the parallel option pricing, scalar_par and simd_par Mandelbrot) give each rayon task its own chunk of the output. However the loads and stores of the tasks are interleaved and in whatever order tasks are started, no two tasks ever access the same element while one of them writes it, no task gets stuck, every execution ends, and it ends with one result: for the stencil the grids of the sequential vector program after all time steps, for the option pricing the result and sum of running the tasks one after the other, for Mandelbrot the image of the sequential definition, whatever the output buffer held before.", "quantifier": "every interleaving of the element accesses of the tasks, every start order, every grid, box and number of time steps inside the grid, every kernel acting lane by lane, every image size", "why_tests_cant": "A test observes one schedule per run; races and order dependence show up only under other schedules.", "anchors": ["examples/stencil/src/simd_par.rs:x8_par", "examples/options_pricing/src/simd_par.rs:parallel", "examples/mandelbrot/src/scalar_par.rs:generate", "examples/mandelbrot/src/simd_par.rs:generate"]}
{"id": "C117", "title": "Square roots and reciprocal estimates are as accurate as documented", "statement": "If the library's square root is IEEE's, x.sqrt() is in every lane, for every float vector type and on every target, the float nearest to the real square root (ties to even), NaN for negative lanes and NaN, the same zero for zeros, infinity for infinity; so it is the same everywhere, within relative error u (unit roundoff) for every positive lane including subnormals, exact if the root is a float, monotone, and (x * x).sqrt() equals x.abs() when the square is a finite normal number. x.sqrte() is the same unless it uses SLEEF's 3.5-ulp functions, and then it is within their error. x.rsqrte() is 1/sqrt(x) with relative error at most 2u/(1-u) and never overflows or underflows for positive lanes; it is an infinity with the lane's sign for zeros, zero for infinity, NaN for negative lanes. x.recpre() is the reciprocal rounded once.", "quantifier": "every target configuration, every float vector type, every bit pattern of every lane, every library meeting its contract", "why_tests_cant": "2^32 (or 2^64) bit patterns per lane, times types and targets; the unit tests look at the square root of 1 and 4 and similar.", "anchors": ["src/api/math/float/sqrt.rs", "src/api/math/float/sqrte.rs", "src/api/math/float/rsqrte.rs", "src/api/math/float/recpre.rs", "src/codegen/math/float/sqrt.rs", "src/codegen/math/float/sqrte.rs", "src/codegen/llvm.rs:simd_fsqrt"]}
{"id": "C118", "title": "aobench's directions are sound in f32, not just in exact arithmetic", "statement": "In f32 arithmetic, with a correctly rounded sqrt and a mul_adde that rounds once or twice: V3D::normalized and V3DxN::normalized give, for every finite vector whose squared length lies between 2^-100 and 2^100, a finite vector whose components are those of the unit vector up to 4.7 roundings and whose squared length is 1 up to 9.5 * 2^-24 (so also the normal recorded at a sphere). ortho_basis on a normal of squared length 1 up to 1/1000 gives finite vectors of length 1 up to 9.5 * 2^-24, at right angles to the normal and each other up to 12 * 2^-24, right-handed; it never divides by zero. For every random number in [0, 1) the direction of a sample is finite, of squared length 1 up to delta + epsilon + 60 * 2^-24 (delta the deviation of the normal, epsilon the error of sin^2 + cos^2), and its cosine with the normal is, up to delta + 31 * 2^-24, a number in [0, 1] whose square is 1 - r up to 4 * 2^-24. The same holds for every lane of the packet and tiled versions if sqrte is the correctly rounded root, as it is without SLEEF; with the 3.5-ulp accuracy SLEEF documents it can fail, the direction being NaN.", "quantifier": "every finite f32 vector in the range, every normal, every pair of random numbers, every lane and packet width, every fused or unfused mul_adde, every sine and cosine with error at most 1/100", "why_tests_cant": "There are 2^96 normals and 2^46 pairs of random numbers; the failure with estimated roots needs one particular estimate at one particular input.", "anchors": ["examples/aobench/src/geometry/vec.rs:normalized,ortho_basis", "examples/aobench/src/geometry/vecxN.rs:normalized,ortho_basis", "examples/aobench/src/ambient_occlusion.rs:scalar,vector,vector_tiled", "examples/aobench/src/intersection/ray_sphere.rs"]}
{"id": "C119", "title": "The spectral-norm example returns the spectral norm, up to a proved error", "statement": "In IEEE f64 arithmetic with a correctly rounded square root, both spectral-norm programs return, for every even size up to 2^31 whose index arithmetic fits a usize, a finite number whose relative distance from the exact value of the ten power-iteration rounds is about (40 n + 234) 2^-53. That exact value never exceeds the spectral norm of the benchmark's matrix and is at least that norm divided by the 78th root of n; hence so is the returned number, up to the rounding error.", "quantifier": "all even sizes up to 2^31, targets, build profiles", "why_tests_cant": "tests compare one rounded decimal at one size", "anchors": ["examples/spectral_norm/src/scalar.rs spectral_norm", "examples/spectral_norm/src/simd.rs spectral_norm", "examples/spectral_norm/src/lib.rs A"]}
{"id": "C120", "title": "The stencil example from its bounds to its result, and the comparison its tests rely on", "statement": "Data built from bounds (number of steps, margin, grid size) with a margin of at least three cells, in a grid of fewer than 2^31 cells that fits memory, has the documented initial values and the box without the margin; running the scalar program on it succeeds and changes the two grids only, to what that many time steps prescribe; when the lanes divide the inner width and multiply-add rounds twice, the vector and the parallel program leave exactly the same data, whatever the order of the tasks. In particular this holds for the default and benchmark data. The comparison used by the example's tests passes exactly if the two data are equal, or have the same parameters and are close in every cell.", "quantifier": "all bounds, arithmetics, targets, build profiles, orders of the parallel tasks; all pairs of data", "why_tests_cant": "tests run one size, and trust a comparison that nothing tests", "anchors": ["examples/stencil/src/lib.rs Data::default, Data::benchmark, Data::from_bounds, Data::new, Data::exec", "examples/stencil/src/lib.rs assert_data_eq", "examples/stencil/src/scalar.rs scalar", "examples/stencil/src/simd.rs x8", "examples/stencil/src/simd_par.rs x8_par"]}
{"id": "C121", "title": "The crate's own check of lexicographic comparisons accepts the truth and nothing else", "statement": "The helper through which the crate tests the ordering of two vectors passes with an expected outcome exactly if that outcome is the lexicographic order of the lanes and the six comparison operators agree with it; on the crate's integer, mask and float vectors it therefore passes exactly for the true outcome, including \"unordered\" for floats.", "quantifier": "all targets, vector types, pairs of vectors, expected outcomes; for soundness, all implementations of the operators", "why_tests_cant": "the check is what the tests trust; nothing tests it", "anchors": ["src/testing/utils.rs test_lt, test_le, test_cmp", "src/api/cmp/partial_ord.rs", "src/api/cmp/partial_eq.rs"]}
{"id": "C122", "title": "The example's random generator has the cycle length it is chosen for, when it is seeded well", "statement": "From any state of its four registers, the numbers drawn from the generator of the aobench example come round again after exactly the product of (2^31-1), (2^29-1), (2^28-1) and (2^25-1) over the registers that are not empty, and not after any number of calls that is not a multiple of it, wherever in the sequence one looks; so a well seeded generator has a cycle of about 2^113. The scalar generator of each thread falls short of it by a factor 2^31-1, and the first lane of the vector generator of each thread repeats itself after 2^29-1 numbers.", "quantifier": "all states and seeds, all numbers of calls, all lanes and widths", "why_tests_cant": "the cycle has about 10^34 elements", "anchors": ["examples/aobench/src/random.rs scalar::RngT gen_u32 gen thread_rng, vector::RngT gen_u32 gen thread_rng"]}
{"id": "C123", "title": "What the Mandelbrot example draws is the Mandelbrot set, up to rounding", "statement": "Computed exactly, a point is in the Mandelbrot set exactly if its count is the limit for every limit, and a count below the limit means that the point's orbit goes to infinity, for the scalar loop and every lane of the vector loop. In f64 the count is that of the true orbit if the true orbit, up to the step at which it leaves the circle of radius 2, keeps clear of that circle by 4^j 2^-48 at step j; points of the set on the real axis, and points at most 0.24 from 0, are counted to the limit whatever the limit. In general, though, f64 can make a point of the set escape.", "quantifier": "all points, limits, targets and widths; all pixels of all pictures", "why_tests_cant": "the set is defined by infinite orbits, and near its boundary rounding errors grow exponentially", "anchors": ["examples/mandelbrot/src/scalar_par.rs MandelbrotIter::count, generate", "examples/mandelbrot/src/simd_par.rs MandelbrotIter::count, generate", "examples/mandelbrot/src/lib.rs Mandelbrot::generate"]}
{"id": "C124", "title": "The matrix inverse example in f32 arithmetic", "statement": "If the elements of a 4x4 matrix are integers times one common power of two, 2^-24 to 2^24, both inverse routines return None exactly for the singular matrices and otherwise a matrix whose every element is the element of the true inverse up to rounding: the scalar routine for integers of at most 28 with a relative error of at most 2.001 * 2^-24, the vector routine for integers of at most 20 with at most 4.01 * 2^-24 (its Newton step makes the result less exact), on every target. Beyond that neither holds: a singular matrix of integers up to 142 is inverted by one routine and not by the other, invertible matrices give None, and 2^40 times the identity gives a zero matrix or NaNs.", "quantifier": "all matrices with such elements, all common powers of two in the range, all targets", "why_tests_cant": "the repository tests two matrices; which elements are exact and how errors add up depends on every intermediate rounding", "anchors": ["examples/matrix_inverse/src/scalar.rs inv4x4", "examples/matrix_inverse/src/simd.rs inv4x4", "examples/matrix_inverse/src/lib.rs Matrix4x4, tests", "src/api/math/float/recpre.rs recpre"]}
{"id": "C125", "title": "The command-line programs of the examples read numbers and print results as documented", "statement": "The programs of fannkuch_redux, spectral_norm and nbody take a size and optionally an algorithm number. An argument is accepted exactly if it is a decimal numeral (digits, possibly after one '+') of a number that fits in usize; anything else, a missing size, or an algorithm other than 0 and 1 panics and prints nothing. Without a second argument each program runs its SIMD algorithm. The fannkuch program, for 3 to 14 cards (12 for the scalar algorithm, 10 with overflow checks), prints the checksum as an i32 and then the largest number of flips, in its two-line format. The spectral-norm program prints, for even sizes up to 2^31 (and sizes whose square fits), a number with nine decimals that is within half a unit of the last decimal of the f64 result, hence within that plus a relative error of (40n+234)/2^53 of the exact value of ten rounds of the power method; for size 0 it prints NaN, for odd sizes it panics, and both algorithms print the same text. The n-body program prints the two energies, each with the nearest nine decimals, and panics for no other reason than its arguments.", "quantifier": "all argument lists (texts of any length), all sizes, both algorithms, builds with and without overflow checks, 32- and 64-bit targets, both rounding rules for ties in printing", "why_tests_cant": "the tests call run with one size each and never go through argument parsing; texts and sizes are unbounded", "anchors": ["examples/fannkuch_redux/src/main.rs: main, run", "examples/spectral_norm/src/main.rs: main, run", "examples/nbody/src/main.rs: main, run", "examples/spectral_norm/src/lib.rs: spectral_norm"]}
{"id": "C126", "title": "The binomial program prices the put of the lattice with BINOMIAL_NUM periods", "statement": "In exact arithmetic binomial_put returns, for every option, the Cox-Ross-Rubinstein price of a European put over BINOMIAL_NUM = N periods of t/N on a stock that starts at s. This is false: scalar and vectorised programs return the textbook price over N - 1 periods of t/N on a stock that starts at s/u, u being the up factor of one period. A put certain to be exercised is therefore overpriced for every rate r >= 0: the program says x e^(-rt) e^(rt/N) - s/u where the value without arbitrage, and that of the N-period lattice, is x e^(-rt) - s. The price returned is never negative and at most the strike discounted over N - 1 periods when the up probability lies in [0, 1].", "quantifier": "every number of periods N > 0, every stock price, strike, maturity, rate and volatility (real numbers), every lane count", "why_tests_cant": "The repository's tests only compare the programs with each other, and all of them share the off-by-one; no finite set of options shows which lattice is priced.", "anchors": ["examples/options_pricing/src/scalar.rs: binomial_put", "examples/options_pricing/src/simd_kernels.rs: binomial_put", "examples/options_pricing/src/lib.rs: BINOMIAL_NUM"]}
{"id": "C127", "title": "Rounding errors of the binomial programs are bounded", "statement": "In f32, for every option whose computed up factor exceeds 1 and is at least the computed interest factor of a period (itself at least 1), with a non-negative strike up to 2^120 and no negative stock price, binomial_put neither overflows nor yields NaN; the computed up probability is in [0, 1]; the scalar price is within 12 parts in a million, and every lane of the vectorised price within 16, of the exact discounted mean of the computed payoffs under the computed probabilities; the two prices are within 28 parts in a million of each other (amounts below 2^-139 apart). For N periods the errors are at most 3, respectively 4, relative roundings per period plus underflow.", "quantifier": "every f32 option with these properties, every exp, powf and sqrt of the library whatever their accuracy, every lane count, every N up to 800000", "why_tests_cant": "The two programs differ in every element (one divides by the interest factor, the other multiplies by its reciprocal); the test compares one sum of a million equal options with a tolerance. How far apart the prices can be is a statement about all inputs and all 63 rounds of rounding.", "anchors": ["examples/options_pricing/src/scalar.rs: binomial_put", "examples/options_pricing/src/simd_kernels.rs: binomial_put", "examples/options_pricing/src/lib.rs: almost_equal"]}
{"id": "C128", "title": "The stencil programs stay within rounding of the exact evolution, fused or not", "statement": "Computing in f32, with a multiply-add that rounds once or twice, the scalar, the vector and the parallel stencil program (in any order of its tasks) succeed, keep every cell finite, and leave both grids within 15 m 2^-24 M rho^(m+1) of the exact evolution of the same initial grids over the reals after m steps, where the grid read first is at most M rho, the other at most M, rho bounds the growth per step ((2 + V W) rho + 1 <= rho^2, W the sum of the absolute weights, V the largest velocity), M is not tiny and the largest value stays well below the largest float. So scalar and vector results differ by at most twice that even where multiply-add is fused. For the data the example builds from any bounds, up to 48 steps, the error is at most 15 m 2^-24 5.32^m; for the default data it is at most 1/8.", "quantifier": "all grids, boxes, coefficients, velocities, initial values, numbers of steps and lanes, orders of the parallel tasks, fused and unfused multiply-add, targets and build profiles", "why_tests_cant": "tests compare one data set on one machine with a tolerance chosen by trial; how errors build up over the steps depends on every cell's neighbourhood and on whether the target fuses multiply-add", "anchors": ["examples/stencil/src/scalar.rs scalar, step", "examples/stencil/src/simd.rs x8, step_x8", "examples/stencil/src/simd_par.rs x8_par", "examples/stencil/src/lib.rs Data::from_bounds, Data::default", "src/api/math/float/mul_adde.rs mul_adde"]}
{"id": "C129", "title": "The Black-Scholes programs price a European call", "statement": "Over the real numbers, the polynomial used for the normal distribution is within 10^-6 of the Gaussian integral at every point and lies between 0 and 1. So the scalar program and each lane of the vector program return, for every positive stock price, strike, time and volatility and every rate, a number within (s + x e^(-rt))/10^6 of the discounted mean payoff of the call when the stock follows geometric Brownian motion with the riskless drift. That number is never negative, never below s - x e^(-rt) and never above s, so the approximation never opens an arbitrage. The mean payoff itself is proved to equal the textbook formula.", "quantifier": "all real stock prices, strikes, times and volatilities above zero, all rates, all lane counts", "why_tests_cant": "tests compare the scalar and the vector program with each other on one option; that both compute the value of a call is a statement about an integral at every real argument", "anchors": ["examples/options_pricing/src/scalar.rs cnd, black_scholes", "examples/options_pricing/src/simd_kernels.rs cnd, black_scholes"]}
{"id": "C130", "title": "The Black-Scholes programs in f32 are within rounding of the value of the call", "statement": "In f32, with a library exponential off by at most X units of 2^-24 on non-positive numbers (X up to 100), the approximation of the normal distribution is a number within 10^-6 + (60 + X/2) 2^-24 of the Gaussian integral at every number up to 2^60 in size, in the scalar program and in every lane of the vector program. The price returned is a number within (s + x D)(10^-6 + (64 + X/2) 2^-24) + 2^-148 of the Black-Scholes formula at the computed d1, d2 and discount factor D. So its distance to the discounted mean payoff is that, plus 2/5 of the errors in d1 and d2 weighted by s and x D, plus x times the error in D.", "quantifier": "all f32 stock prices and strikes up to 2^60, all times, rates and volatilities for which d1, d2 and the discount factor are numbers up to 2^60, all library functions with the stated accuracy, all lane counts", "why_tests_cant": "tests price one option and compare two programs that make the same rounding errors; the error at every argument, with 30 roundings and a library function in between, cannot be enumerated", "anchors": ["examples/options_pricing/src/scalar.rs cnd, black_scholes", "examples/options_pricing/src/simd_kernels.rs cnd, black_scholes"]}
{"id": "C131", "title": "Total momentum in an N-body run in f64 drifts only by rounding", "statement": "Computing in f64, one step of either N-body program changes a component of the total momentum by at most 1.01 * 2^-53 * (p Q + (2p + 4) W) plus underflow, where p is the number of pairs of bodies, Q the sum of the masses times the absolute velocities and W the sum over the pairs of the impulses they exchange; so n steps change it by at most the sum of these bounds. After offset_momentum (the first body being at rest with mass SOLAR_MASS) it is at most 1.01 * (N + 3) * 2^-53 * Q plus underflow, for N bodies. This needs only that no mass is negative and that the velocities are still numbers at the end, and holds however inaccurate the square root (or its estimate) is.", "quantifier": "all arrays of bodies (at most 2^39 pairs), numbers of steps, dt, components, targets and square roots", "why_tests_cant": "an error bound over executions of unbounded length, for every rounding that can occur; tests compare the energy of one system after a few steps", "anchors": ["examples/nbody/src/scalar.rs offset_momentum, advance", "examples/nbody/src/simd.rs offset_momentum, advance"]}
{"id": "C132", "title": "Rounding errors of the matrix inverse example are bounded on general matrices", "statement": "Let M, between 2^-20 and 2^20, bound the magnitudes of the elements of a 4x4 matrix A of finite f32. Both inverse routines return None only if |det A| is at most 208 (scalar) or 262 (vector) times 2^-24 M^4. If |det A| is at least M^4/4096 both return a matrix of finite numbers, each within (K M^3/|det A| + 1311 M^7/(det A)^2) 2^-24 of the element of the true inverse, with K = 45 (scalar) and 58 (vector), on every target; so the routines agree up to the sum of these bounds, and the product of A and either result is the identity up to 4 M times the bound.", "quantifier": "all matrices of finite f32 with elements of at most M, all M in the range, all targets", "why_tests_cant": "the repository tests two matrices; cancellation in cofactors and determinant depends on every element", "anchors": ["examples/matrix_inverse/src/scalar.rs inv4x4", "examples/matrix_inverse/src/simd.rs inv4x4", "src/api/math/float/recpre.rs recpre", "src/api/reductions/float_arithmetic.rs sum"]}
{"id": "C133", "title": "Rounding errors of the triangle transformation are bounded", "statement": "In f32, for a matrix and triangles of finite numbers, both the scalar transformation and the vector pipeline (pack, transform, unpack) give triangles whose coordinates are finite and within 4.001 * 2^-24 * S + 4 * 2^-150 of the coordinates of the true affine image, where S is the sum of the magnitudes of the four summands, provided S is at most 2^126.", "quantifier": "all matrices and triangles of finite f32 with S at most 2^126, all lane counts, all slices whose length is a multiple of it", "why_tests_cant": "the repository checks a translation and that both programs agree on random triangles; neither bounds the error for all inputs", "anchors": ["examples/triangle_xform/src/scalar.rs Triangle::transform", "examples/triangle_xform/src/simd.rs Triangle::pack, transform, unpack"]}
{"id": "C134", "title": "The energy the N-body example prints is accurate to a bound linear in the number of pairs of bodies", "statement": "For N bodies with positive masses, no two of them at the same place, and masses, velocities and differences of positions zero or between 2^-100 and 2^100 in magnitude, both programs' energy function, computing in f64, returns a number within 1.01·(N(N+1)/2 + 6)·2^-53 (scalar) or 1.01·(N(N+1)/2 + 7)·2^-53 (vectors of 4 with the fourth component zero, on any target) of the true energy of the system, relative to the kinetic energy plus the magnitude of the potential energy. In particular neither panics nor overflows, and on the same bodies the two programs' energies differ by at most the sum of both bounds, although they multiply in a different order.", "quantifier": "every number of bodies N with N(N+1)/2 ≤ 2^39, every such set of f64 bodies, every target, every square root that rounds to nearest", "why_tests_cant": "Rounding errors depend on every bit of all coordinates; the example compares its output with a reference to 9 decimal places for one system and two step counts.", "anchors": ["examples/nbody/src/simd.rs: energy", "examples/nbody/src/scalar.rs: energy", "src/api/reductions/float_arithmetic.rs: sum", "src/api/math/float/sqrt.rs"]}
{"id": "C135", "title": "One step of the N-body example is the exact step up to a rounding error linear in the number of bodies", "statement": "For N bodies with positive masses, no two of them at the same place, masses, velocities and differences of positions zero or between 2^-100 and 2^100 in magnitude, positions of magnitude at most 2^1000, and a positive time step between 2^-100 and 2^100, both programs' advance function, computing in f64, leaves all masses as they are, makes only finite positions and velocities, and every component of every velocity is within 1.01·(N+14)·2^-53 (scalar) or 1.01·(N+17)·2^-53 (vectors of 4 with the fourth component zero and an even number of pairs, on any target) of what the exact step of the symplectic Euler method yields, relative to the magnitude of the old velocity plus the magnitudes of all pulls in that component; every position is within 1.01·(N+16)·2^-53 or 1.01·(N+19)·2^-53 of the exact one, relative to the old position's magnitude plus dt times that sum, but for 2^-1074. On the same bodies the two programs' results differ by at most the sum of both bounds.", "quantifier": "every number of bodies N ≤ 2^39, every such set of f64 bodies and time step, every target, every square root that rounds to nearest", "why_tests_cant": "Rounding errors depend on every bit of all coordinates and on the order of updates; the example compares only its final energy with a reference to 9 decimal places for one system.", "anchors": ["examples/nbody/src/simd.rs: advance", "examples/nbody/src/scalar.rs: advance", "src/api/math/float/sqrte.rs", "src/api/reductions/float_arithmetic.rs: sum"]}
{"id": "C136", "title": "Where the ray tracer's rays hit planes and spheres is right up to a few roundings", "statement": "In f32, for a ray, a plane and a sphere whose coordinates are finite and at most 2^30 in magnitude, and an earlier hit at a finite distance of at most 2^60: the plane test of the ray tracer either leaves the earlier hit as it is or records a new one. If it records one, the distance t is finite, positive and less than the earlier one, the normal is the plane's, the ray at t and the point recorded are on the plane up to 5.01 and 7.1 roundings (2^-24) of the magnitudes that are added up, and every coordinate of the point recorded is that of the ray at t up to two roundings. If it does not, the ray is parallel to the plane up to rounding or it meets the plane, up to the same error, behind its origin or no nearer than the earlier hit. Likewise the sphere test, for a direction whose squared length is within d ≤ 1/1000 of 1: the ray at t is on the sphere up to 19 roundings plus d·t^2 and t is the smaller of the two parameters; if no hit is recorded, the discriminant is at most 0 up to 18 roundings or the ray enters the sphere behind its origin or no nearer. The same holds for every lane of the packet tests, whether or not mul_adde rounds once.", "quantifier": "all such rays, planes, spheres and earlier hits; all lane counts and lanes; every square root that rounds to nearest; every mul_adde that rounds once or twice", "why_tests_cant": "Whether a hit is found depends on signs of rounded sums that cancel; the repository compares the images of its programs with one another only.", "anchors": ["examples/aobench/src/intersection/ray_plane.rs: Intersect<Plane> for Ray, for RayxN", "examples/aobench/src/intersection/ray_sphere.rs: Intersect<Sphere> for Ray, for RayxN", "examples/aobench/src/geometry/vec.rs", "examples/aobench/src/geometry/vecxN.rs"]}
{"id": "C137", "title": "In f32 the ray tracer finds the nearest surface of its scene, up to rounding", "statement": "In f32, for a ray whose origin has coordinates of at most 2^30 and whose direction has a squared length within d ≤ 1/1000 of 1, and a scene of any number of spheres and a plane with numbers of at most 2^30, casting the ray into the scene gives a result that no surface of the scene is hit nearer than, up to the few roundings of C136, and that is a hit of one of these surfaces, with the accuracy of C136 and nearer than 10^17, or the initial value that means no hit. The same holds for every lane of a packet, whatever the other lanes are; without debug assertions a packet always has a result. The scene of the program is of this kind.", "quantifier": "all such rays and scenes of any number of spheres; all lane counts, lanes and packets; every square root that rounds to nearest; every mul_adde that rounds once or twice", "why_tests_cant": "Errors of tests against several surfaces decide which of them is recorded; the repository compares the images of its programs with one another only.", "anchors": ["examples/aobench/src/ambient_occlusion.rs", "examples/aobench/src/scalar.rs", "examples/aobench/src/tiled.rs", "examples/aobench/src/intersection", "examples/aobench/src/scene"]}
{"id": "C138", "title": "Every camera ray of the ray tracer goes through its sample of the image, up to rounding", "statement": "For every image of at most 2^24 by 2^24 pixels with at most 2^24 by 2^24 samples per pixel, the direction that the scalar, the vectorized (serial and parallel) and the tiled programs compute in f32 for a sample of a pixel is finite, of squared length within 9.5·2^-24 of 1, and it is the direction, up to 4.7 roundings per component, to a point in the plane z = -1 that differs from the exact place of this sample (row 0 on top, height 2, width 2·w/h) by at most 15·2^-24 vertically and 15·2^-24·w/h horizontally; for the tiled programs in every lane. So the ray found by any of the programs for any sample gets the nearest surface of the scene in the sense of C137.", "quantifier": "all image sizes and sample counts up to 2^24, all pixels and samples; all lane counts and lanes; every square root that rounds to nearest; every mul_adde that rounds once or twice", "why_tests_cant": "The programs compute the direction in four different ways and the tests compare pictures of one size.", "anchors": ["examples/aobench/src/scalar.rs: ao", "examples/aobench/src/scalar_parallel.rs: ao", "examples/aobench/src/vector.rs: ao", "examples/aobench/src/vector_parallel.rs: ao", "examples/aobench/src/tiled.rs: ao", "examples/aobench/src/tiled_parallel.rs: ao"]}
{"id": "C139", "title": "Scalar ambient occlusion in f32 is exactly the share of 64 sound rays that hit nothing", "statement": "In f32, at a point with coordinates of at most 2^29 on a surface whose normal has a squared length within d of 1, the scalar ambient occlusion returns exactly m/64, where m is the number of 64 rays that hit nothing. Each of these rays starts on the normal at the point, at a distance parameter within 10^-11 of 0.0001, up to two roundings; its direction has a squared length within d + e + 60·2^-24 of 1 and has, up to d + 31·2^-24, the scalar product with the normal that the first of the two random numbers drawn for this ray asks for (C118), where e bounds the error of sin^2 + cos^2; there is one ray for each consecutive pair of the 128 numbers drawn; and what it hits is the nearest surface of the scene up to rounding (C137). It holds for every scene of numbers up to 2^30 whose random numbers are in [0, 1), in particular for the program's random scene in every state of its generator and its test scene, new or used, for both of which the function always returns.", "quantifier": "all such points, normals and scenes; all states of the generator; d + e + 60·2^-24 at most 1/1000; every square root that rounds to nearest, all sine and cosine functions with values in [-1, 1] and sin^2 + cos^2 within e of 1", "why_tests_cant": "The result depends on the point, the normal, the scene and 128 random numbers, all arbitrary floats; the tests compare pictures.", "anchors": ["examples/aobench/src/ambient_occlusion.rs: scalar", "examples/aobench/src/scene/random.rs", "examples/aobench/src/scene/test.rs", "examples/aobench/src/intersection"]}
{"id": "C140", "title": "Vectorized and tiled ambient occlusion in f32 count 64 sound rays each", "statement": "In f32, under the conditions of C139 on the point, the normal and the scene, the vectorized ambient occlusion (lane count dividing 8) returns on every target exactly m/64, where m is the number of rays that hit nothing among 64 rays, one for each lane of the 64/n packets of random numbers drawn; lane i of the tiled ambient occlusion is exactly m/64 for the 64 rays of lane i of the 64 packets drawn, whatever the other lanes are. Each ray starts at the point that C139 describes, has, up to the same errors, the scalar product with the normal that the first number of its pair asks for, and what it hits is the nearest surface of the scene up to rounding (C137). With the program's random scene and test scene and without debug assertions both functions always return.", "quantifier": "all points, normals and scenes as in C139, all packets of points; all states of the generator; all lane counts (dividing 8 for the vectorized function) and lanes; all targets; every sqrt and sqrte that round to nearest; every mul_adde that rounds once or twice; all sin_cos_pi with values in [-1, 1] and sin^2 + cos^2 within e of 1", "why_tests_cant": "The counts are added up in f32 in an order that depends on the target, and the random numbers and points are arbitrary floats; the tests compare pictures.", "anchors": ["examples/aobench/src/ambient_occlusion.rs: vector, vector_tiled", "examples/aobench/src/scene/random.rs", "examples/aobench/src/scene/test.rs", "examples/aobench/src/intersection"]}
