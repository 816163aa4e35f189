{
 "claims": [
  {
   "property": "C01",
   "status": "proved",
   "theorems": [
    "PackedSimd.Props.C01_new_extract",
    "PackedSimd.Props.C01_splat_extract",
    "PackedSimd.Props.C01_ext",
    "PackedSimd.Props.C01_mask_new_extract",
    "PackedSimd.Props.C01_mask_splat_extract",
    "PackedSimd.Props.C01_mask_ext",
    "PackedSimd.Props.C01_mask_new_denotes",
    "PackedSimd.Props.C01_default"
   ],
   "note": ""
  },
  {
   "property": "C02",
   "status": "proved",
   "theorems": [
    "PackedSimd.Props.C02_replace",
    "PackedSimd.Props.C02_replace_sequence",
    "PackedSimd.Props.C02_replace_replace_same",
    "PackedSimd.Props.C02_replace_comm",
    "PackedSimd.Props.C02_mask_replace"
   ],
   "note": ""
  },
  {
   "property": "C03",
   "status": "proved",
   "theorems": [
    "PackedSimd.Props.C03_extract_panics_iff",
    "PackedSimd.Props.C03_lanes",
    "PackedSimd.Props.C03_replace_panics_iff",
    "PackedSimd.Props.C03_mask_extract_panics_iff",
    "PackedSimd.Props.C03_mask_replace_panics_iff",
    "PackedSimd.Props.C03_unchecked_agree",
    "PackedSimd.Props.C03_mask_unchecked_agree"
   ],
   "note": ""
  },
  {
   "property": "C04",
   "status": "partial",
   "theorems": [
    "PackedSimd.Props.C04_valid_partial",
    "PackedSimd.Props.C04_fails"
   ],
   "note": "Invariant proved over all histories of safe calls except casts to m128x1, for which it is proved false (C04_fails)."
  },
  {
   "property": "C05",
   "status": "proved",
   "theorems": [
    "PackedSimd.Props.C05_from_slice_unaligned",
    "PackedSimd.Props.C05_from_slice_aligned",
    "PackedSimd.Props.C05_unchecked_agree",
    "PackedSimd.Props.C05_aligned_eq_unaligned",
    "PackedSimd.Props.C05_reads_only_first_n"
   ],
   "note": ""
  },
  {
   "property": "C06",
   "status": "proved",
   "theorems": [
    "PackedSimd.Props.C06_write_to_slice_unaligned",
    "PackedSimd.Props.C06_write_to_slice_aligned",
    "PackedSimd.Props.C06_unchecked_agree",
    "PackedSimd.Props.C06_unchecked_misaligned"
   ],
   "note": ""
  },
  {
   "property": "C07",
   "status": "proved",
   "theorems": [
    "PackedSimd.Props.C07_read_after_write",
    "PackedSimd.Props.C07_write_after_read",
    "PackedSimd.Props.C07_array_roundtrip"
   ],
   "note": ""
  },
  {
   "property": "C08",
   "status": "proved",
   "theorems": [
    "PackedSimd.Props.C08_hash_eq_array_hash",
    "PackedSimd.Props.C08_equal_hash"
   ],
   "note": ""
  },
  {
   "property": "C09",
   "status": "proved",
   "theorems": [
    "PackedSimd.Props.C09_add",
    "PackedSimd.Props.C09_sub",
    "PackedSimd.Props.C09_mul"
   ],
   "note": ""
  },
  {
   "property": "C10",
   "status": "proved",
   "theorems": [
    "PackedSimd.Props.C10_div",
    "PackedSimd.Props.C10_rem",
    "PackedSimd.Props.C10_div_rem"
   ],
   "note": ""
  },
  {
   "property": "C11",
   "status": "proved",
   "theorems": [
    "PackedSimd.Props.C11_vector_scalar",
    "PackedSimd.Props.C11_scalar_vector",
    "PackedSimd.Props.C11_assign",
    "PackedSimd.Props.C11_C14_shl_u32",
    "PackedSimd.Props.C11_C14_shr_u32"
   ],
   "note": ""
  },
  {
   "property": "C12",
   "status": "proved",
   "theorems": [
    "PackedSimd.Props.C12_neg",
    "PackedSimd.Props.C12_neg_neg",
    "PackedSimd.Props.C12_add_neg"
   ],
   "note": ""
  },
  {
   "property": "C13",
   "status": "proved",
   "theorems": [
    "PackedSimd.Props.C13_bitwise"
   ],
   "note": ""
  },
  {
   "property": "C14",
   "status": "proved",
   "theorems": [
    "PackedSimd.Props.C11_C14_shl_u32",
    "PackedSimd.Props.C11_C14_shr_u32",
    "PackedSimd.Props.C14_shl",
    "PackedSimd.Props.C14_shr"
   ],
   "note": ""
  },
  {
   "property": "C15",
   "status": "partial",
   "theorems": [
    "PackedSimd.Props.C15_rotate_left_unsigned_partial",
    "PackedSimd.Props.C15_rotate_right_unsigned_partial",
    "PackedSimd.Props.C15_rotate_inverse_unsigned_partial",
    "PackedSimd.Props.C15_rotate_left_signed_partial",
    "PackedSimd.Props.C15_rotate_right_signed_partial",
    "PackedSimd.Props.C15_rotate_left_signed_fails",
    "PackedSimd.Props.C15_rotate_right_signed_fails",
    "PackedSimd.Props.C15_rotate_left_signed_negative_lane",
    "PackedSimd.Props.C15_rotate_signed_negative_amount_ub"
   ],
   "note": "Holds for unsigned lanes; proved false for signed lanes (arithmetic shift / negative amounts), with the exact behaviour that remains."
  },
  {
   "property": "C16",
   "status": "proved",
   "theorems": [
    "PackedSimd.Props.C16_min",
    "PackedSimd.Props.C16_max",
    "PackedSimd.Props.C16_laws",
    "PackedSimd.Props.C16_float",
    "PackedSimd.Props.C16_float_laws"
   ],
   "note": ""
  },
  {
   "property": "C17",
   "status": "proved",
   "theorems": [
    "PackedSimd.Props.C17_mask_ops",
    "PackedSimd.Props.C17_mask_scalar_ops",
    "PackedSimd.Props.C17_extract_of_denotes"
   ],
   "note": ""
  },
  {
   "property": "C18",
   "status": "proved",
   "theorems": [
    "PackedSimd.Props.C18_int",
    "PackedSimd.Props.C18_mask",
    "PackedSimd.Props.C18_float"
   ],
   "note": ""
  },
  {
   "property": "C19",
   "status": "proved",
   "theorems": [
    "PackedSimd.Props.C19_eq_ne",
    "PackedSimd.Props.C19_equivalence",
    "PackedSimd.Props.C19_mask",
    "PackedSimd.Props.C19_float",
    "PackedSimd.Props.C19_float_reflexive"
   ],
   "note": ""
  },
  {
   "property": "C20",
   "status": "proved",
   "theorems": [
    "PackedSimd.Props.C20_int",
    "PackedSimd.Props.C20_mask",
    "PackedSimd.Props.C20_total_order"
   ],
   "note": ""
  },
  {
   "property": "C21",
   "status": "proved",
   "theorems": [
    "PackedSimd.Props.C21_lex"
   ],
   "note": ""
  },
  {
   "property": "C22",
   "status": "proved",
   "theorems": [
    "PackedSimd.Props.C22_all",
    "PackedSimd.Props.C22_any",
    "PackedSimd.Props.C22_none"
   ],
   "note": ""
  },
  {
   "property": "C23",
   "status": "proved",
   "theorems": [
    "PackedSimd.Props.C23_sum",
    "PackedSimd.Props.C23_product",
    "PackedSimd.Props.C23_any_order",
    "PackedSimd.Props.C23_documented_tree"
   ],
   "note": ""
  },
  {
   "property": "C24",
   "status": "proved",
   "theorems": [
    "PackedSimd.Props.C24_and",
    "PackedSimd.Props.C24_or",
    "PackedSimd.Props.C24_xor",
    "PackedSimd.Props.C24_mask"
   ],
   "note": ""
  },
  {
   "property": "C25",
   "status": "proved",
   "theorems": [
    "PackedSimd.Props.C25_max",
    "PackedSimd.Props.C25_min"
   ],
   "note": ""
  },
  {
   "property": "C26",
   "status": "partial",
   "theorems": [
    "PackedSimd.Props.C26_left_to_right_partial",
    "PackedSimd.Props.C26_sum_same_value_on_all_targets",
    "PackedSimd.Props.C26_nan",
    "PackedSimd.Props.C26_exact_sum_partial",
    "PackedSimd.Props.C26_tree_fails",
    "PackedSimd.Props.C26_zero_sign_differs"
   ],
   "note": "The documented tree order is proved false on every target (C26_tree_fails). Proved instead: the exact left-to-right order computed on each target, equality of value across targets, NaN propagation, and agreement with every bracketing whenever the lanes are multiples of one power of two with bounded total magnitude."
  },
  {
   "property": "C27",
   "status": "proved",
   "theorems": [
    "PackedSimd.Props.C27_bitmask",
    "PackedSimd.Props.C27_mask"
   ],
   "note": ""
  },
  {
   "property": "C28",
   "status": "proved",
   "theorems": [
    "PackedSimd.Props.C28_select",
    "PackedSimd.Props.C28_select_not"
   ],
   "note": ""
  },
  {
   "property": "C29",
   "status": "partial",
   "theorems": [
    "PackedSimd.Props.C29_two_vectors",
    "PackedSimd.Props.C29_rejected",
    "PackedSimd.Props.C29_one_vector",
    "PackedSimd.Props.C29_compose",
    "PackedSimd.Props.C29_one_vector_rejection_fails",
    "PackedSimd.Props.C29_one_vector_partial"
   ],
   "note": "Lane selection proved for all valid index lists; rejection of out-of-range indices proved for the two-vector form; in the one-vector form indices from N to 2N-1 are accepted, not rejected (C29_one_vector_rejection_fails)."
  },
  {
   "property": "C30",
   "status": "proved",
   "theorems": [
    "PackedSimd.Props.C30_unsigned",
    "PackedSimd.Props.C30_other_types"
   ],
   "note": ""
  },
  {
   "property": "C31",
   "status": "partial",
   "theorems": [
    "PackedSimd.Props.C31_whole_lanes_partial",
    "PackedSimd.Props.C31_same_outcome_fails",
    "PackedSimd.Props.C31_outcomes_fails",
    "PackedSimd.Props.C31_narrowing_fails",
    "PackedSimd.Props.C31_portable_partial"
   ],
   "note": "Proved false: out-of-range indices panic, wrap or give zero depending on the target (C31_same_outcome_fails, C31_outcomes_fails, C31_narrowing_fails). Proved: shapes with only the portable implementation panic for out-of-range indices that fit 32 bits, and every lane returned is a whole lane of the vector or zero."
  },
  {
   "property": "C32",
   "status": "proved",
   "theorems": [
    "PackedSimd.Props.C32_swap_bytes",
    "PackedSimd.Props.C32_memory",
    "PackedSimd.Props.C32_involution",
    "PackedSimd.Props.C32_endian"
   ],
   "note": ""
  },
  {
   "property": "C33",
   "status": "partial",
   "theorems": [
    "PackedSimd.Props.C33_lanewise_fails",
    "PackedSimd.Props.C33_lanewise_partial"
   ],
   "note": "The implementation reverses the bytes of the whole vector: proved false for vectors of several lanes (C33_lanewise_fails) and true for single-lane vectors."
  },
  {
   "property": "C34",
   "status": "proved",
   "theorems": [
    "PackedSimd.Props.C34_count",
    "PackedSimd.Props.C34_sum",
    "PackedSimd.Props.C34_zeros"
   ],
   "note": ""
  },
  {
   "property": "C35",
   "status": "proved",
   "theorems": [
    "PackedSimd.Props.C35_numeric",
    "PackedSimd.Props.C35_mask",
    "PackedSimd.Props.C35_complete"
   ],
   "note": ""
  },
  {
   "property": "C36",
   "status": "proved",
   "theorems": [
    "PackedSimd.Props.C36_int",
    "PackedSimd.Props.C36_cases",
    "PackedSimd.Props.C36_round_trip"
   ],
   "note": ""
  },
  {
   "property": "C37",
   "status": "partial",
   "theorems": [
    "PackedSimd.Props.C37_to_mask_partial",
    "PackedSimd.Props.C37_m128x1_fails",
    "PackedSimd.Props.C37_mask_to_int",
    "PackedSimd.Props.C37_mask_to_float"
   ],
   "note": "Proved for every impl except casts to m128x1, which truncate instead of testing for nonzero (C37_m128x1_fails)."
  },
  {
   "property": "C38",
   "status": "proved",
   "theorems": [
    "PackedSimd.Props.C38_same_size",
    "PackedSimd.Props.C38_bytes",
    "PackedSimd.Props.C38_round_trip",
    "PackedSimd.Props.C38_mask",
    "PackedSimd.Props.C38_complete",
    "PackedSimd.Props.C38_arch_same_size",
    "PackedSimd.Props.C38_arch_round_trip",
    "PackedSimd.Props.C38_arch_mask"
   ],
   "note": ""
  },
  {
   "property": "C39",
   "status": "proved",
   "theorems": [
    "PackedSimd.Props.C39_offset",
    "PackedSimd.Props.C39_add_sub",
    "PackedSimd.Props.C39_inverse",
    "PackedSimd.Props.C39_add_is_offset",
    "PackedSimd.Props.C39_offset_offset"
   ],
   "note": ""
  },
  {
   "property": "C40",
   "status": "partial",
   "theorems": [
    "PackedSimd.Props.C40_swapped_partial",
    "PackedSimd.Props.C40_inverse_swapped_partial",
    "PackedSimd.Props.C40_sign_fails",
    "PackedSimd.Props.C40_zero_sized_fails"
   ],
   "note": "Magnitude proved with operands swapped; the documented sign is proved false (C40_sign_fails), and zero-sized elements have undefined behaviour (C40_zero_sized_fails)."
  },
  {
   "property": "C41",
   "status": "proved",
   "theorems": [
    "PackedSimd.Props.C41_null",
    "PackedSimd.Props.C41_eq",
    "PackedSimd.Props.C41_array_hash"
   ],
   "note": ""
  },
  {
   "property": "C42",
   "status": "proved",
   "theorems": [
    "PackedSimd.Props.C42_read",
    "PackedSimd.Props.C42_fault",
    "PackedSimd.Props.C42_reads_only_enabled"
   ],
   "note": ""
  },
  {
   "property": "C43",
   "status": "proved",
   "theorems": [
    "PackedSimd.Props.C43_write",
    "PackedSimd.Props.C43_last_wins",
    "PackedSimd.Props.C43_fault",
    "PackedSimd.Props.C43_ignores_disabled",
    "PackedSimd.Props.C43_read_back"
   ],
   "note": ""
  },
  {
   "property": "C44",
   "status": "proved",
   "theorems": [
    "PackedSimd.Props.C44_pieces",
    "PackedSimd.Props.C44_mask_pieces",
    "PackedSimd.Props.C44_ptr_pieces",
    "PackedSimd.Props.C44_text",
    "PackedSimd.Props.C44_mask_text",
    "PackedSimd.Props.C44_scalar_mask",
    "PackedSimd.Props.C44_injective",
    "PackedSimd.Props.C44_determines",
    "PackedSimd.Props.C44_debug_int",
    "PackedSimd.Props.C44_radix_int"
   ],
   "note": ""
  },
  {
   "property": "C45",
   "status": "proved",
   "theorems": [
    "PackedSimd.Props.C45_classify"
   ],
   "note": ""
  },
  {
   "property": "C46",
   "status": "proved",
   "theorems": [
    "PackedSimd.Props.C46_all_types",
    "PackedSimd.Props.C46_lanewise",
    "PackedSimd.Props.C46_rsqrte"
   ],
   "note": ""
  },
  {
   "property": "C47",
   "status": "partial",
   "theorems": [
    "PackedSimd.Props.C47_sin_cos_pi_partial",
    "PackedSimd.Props.C47_f32x2_fails"
   ],
   "note": "Proved for every type and target except f32x2 on x86_64 with sleef-sys, where it is proved false (C47_f32x2_fails)."
  },
  {
   "property": "C48",
   "status": "proved",
   "theorems": [
    "PackedSimd.Props.C48_float",
    "PackedSimd.Props.C48_float_exact",
    "PackedSimd.Props.C48_sum_product",
    "PackedSimd.Props.C48_order_independent"
   ],
   "note": ""
  },
  {
   "property": "C49",
   "status": "proved",
   "theorems": [
    "PackedSimd.Props.C49_reduce",
    "PackedSimd.Props.C49_slice_sums",
    "PackedSimd.Props.C49_exact",
    "PackedSimd.Props.C49_float_exact"
   ],
   "note": ""
  },
  {
   "property": "C50",
   "status": "partial",
   "theorems": [
    "PackedSimd.Props.C50_sums",
    "PackedSimd.Props.C50_aligned_partial",
    "PackedSimd.Props.C50_misaligned_fails",
    "PackedSimd.Props.C50_empty_fails"
   ],
   "note": "The vertical, horizontal and parallel sums are proved for every slice and every task tree; the aligned parallel variant is proved for slices that start aligned (C50_aligned_partial) and proved wrong otherwise (C50_misaligned_fails, C50_empty_fails)."
  },
  {
   "property": "C51",
   "status": "proved",
   "theorems": [
    "PackedSimd.Props.C51_sums",
    "PackedSimd.Props.C51_exact",
    "PackedSimd.Props.C51_float_exact"
   ],
   "note": ""
  },
  {
   "property": "C52",
   "status": "proved",
   "theorems": [
    "PackedSimd.Props.C52_inverse",
    "PackedSimd.Props.C52_scalar",
    "PackedSimd.Props.C52_agree"
   ],
   "note": ""
  },
  {
   "property": "C53",
   "status": "partial",
   "theorems": [
    "PackedSimd.Props.C53_f64_partial",
    "PackedSimd.Props.C53_nan",
    "PackedSimd.Props.C53_region",
    "PackedSimd.Props.C53_region_finite",
    "PackedSimd.Props.C53_generate",
    "PackedSimd.Props.C53_pixels",
    "PackedSimd.Props.C53_scalar",
    "PackedSimd.Props.C53_lanes",
    "PackedSimd.Props.C53_count_partial",
    "PackedSimd.Props.C53_exact",
    "PackedSimd.Props.C53_image_partial",
    "PackedSimd.Props.C53_image_exact",
    "PackedSimd.Props.C53_nan_fails"
   ],
   "note": "Proved in full in exact arithmetic, for counts and whole images; in IEEE f64 for every starting point that is not NaN (C53_f64_partial), every region without NaN points, in particular every region with bounds up to 10^9 (C53_region, C53_region_finite), and the program as shipped (C53_generate, C53_pixels). For NaN points the claim is false, and what both loops return is proved (C53_nan, C53_nan_fails). For an arbitrary arithmetic proved under the two facts it needs (C53_count_partial)."
  },
  {
   "property": "C54",
   "status": "proved",
   "theorems": [
    "PackedSimd.Props.C54_pack_panics_iff",
    "PackedSimd.Props.C54_pack_lanes",
    "PackedSimd.Props.C54_roundtrip",
    "PackedSimd.Props.C54_roundtrip'",
    "PackedSimd.Props.C54_scalar",
    "PackedSimd.Props.C54_transform",
    "PackedSimd.Props.C54_pipeline"
   ],
   "note": ""
  },
  {
   "property": "C55",
   "status": "proved",
   "theorems": [
    "PackedSimd.Props.C55_consistent",
    "PackedSimd.Props.C55_consistent_mask"
   ],
   "note": ""
  },
  {
   "property": "C56",
   "status": "proved",
   "theorems": [
    "PackedSimd.Props.C56_new_test",
    "PackedSimd.Props.C56_compare",
    "PackedSimd.Props.C56_hash"
   ],
   "note": ""
  },
  {
   "property": "C57",
   "status": "proved",
   "theorems": [
    "PackedSimd.Props.C57_arith",
    "PackedSimd.Props.C57_rounding_unique",
    "PackedSimd.Props.C57_add_exact",
    "PackedSimd.Props.C57_neg",
    "PackedSimd.Props.C57_signs",
    "PackedSimd.Props.C57_signs_sub_rem",
    "PackedSimd.Props.C57_broadcast"
   ],
   "note": ""
  },
  {
   "property": "C58",
   "status": "proved",
   "theorems": [
    "PackedSimd.Props.C58_min_max_element"
   ],
   "note": ""
  },
  {
   "property": "C59",
   "status": "proved",
   "theorems": [
    "PackedSimd.Props.C59_int_to_float",
    "PackedSimd.Props.C59_float_to_float",
    "PackedSimd.Props.C59_f32_to_f64",
    "PackedSimd.Props.C59_float_to_int"
   ],
   "note": ""
  },
  {
   "property": "C60",
   "status": "partial",
   "theorems": [
    "PackedSimd.Props.C60_defined_partial",
    "PackedSimd.Props.C60_float_to_int_fails"
   ],
   "note": "Proved for all casts except float to integer lanes, where out-of-range lanes are undefined behaviour (C60_float_to_int_fails)."
  },
  {
   "property": "C61",
   "status": "proved",
   "theorems": [
    "PackedSimd.Props.C61_available",
    "PackedSimd.Props.C61_reflexive",
    "PackedSimd.Props.C61_unique"
   ],
   "note": ""
  },
  {
   "property": "C62",
   "status": "proved",
   "theorems": [
    "PackedSimd.Props.C62_compare"
   ],
   "note": ""
  },
  {
   "property": "C63",
   "status": "partial",
   "theorems": [
    "PackedSimd.Props.C63_fused_partial",
    "PackedSimd.Props.C63_s390x_fails"
   ],
   "note": "Proved for every architecture except s390x, where it is proved false (C63_s390x_fails)."
  },
  {
   "property": "C64",
   "status": "proved",
   "theorems": [
    "PackedSimd.Props.C64_mul_adde"
   ],
   "note": ""
  },
  {
   "property": "C65",
   "status": "proved",
   "theorems": [
    "PackedSimd.Props.C65_storage",
    "PackedSimd.Props.C65_declared",
    "PackedSimd.Props.C65_distinct"
   ],
   "note": ""
  },
  {
   "property": "C66",
   "status": "partial",
   "theorems": [
    "PackedSimd.Props.C66_shuffle_type",
    "PackedSimd.Props.C66_shuffle_exists_partial",
    "PackedSimd.Props.C66_m16x32_fails"
   ],
   "note": "Result types proved correct for every entry; every vector type is produced except m16x32, for which no entry exists (C66_m16x32_fails)."
  },
  {
   "property": "C67",
   "status": "proved",
   "theorems": [
    "PackedSimd.Props.C67_same",
    "PackedSimd.Props.C67_float"
   ],
   "note": ""
  },
  {
   "property": "C68",
   "status": "proved",
   "theorems": [
    "PackedSimd.Props.C68_exact"
   ],
   "note": ""
  },
  {
   "property": "C69",
   "status": "proved",
   "theorems": [
    "PackedSimd.Props.C69_black_scholes",
    "PackedSimd.Props.C69_black_scholes_f32",
    "PackedSimd.Props.C69_binomial"
   ],
   "note": ""
  },
  {
   "property": "C70",
   "status": "proved",
   "theorems": [
    "PackedSimd.Props.C70_scalar",
    "PackedSimd.Props.C70_serial",
    "PackedSimd.Props.C70_new_state",
    "PackedSimd.Props.C70_black_scholes",
    "PackedSimd.Props.C70_exact"
   ],
   "note": ""
  },
  {
   "property": "C71",
   "status": "partial",
   "theorems": [
    "PackedSimd.Props.C71_parallel_reads",
    "PackedSimd.Props.C71_constant_partial",
    "PackedSimd.Props.C71_parallel_fails"
   ],
   "note": "The parallel driver indexes its inputs by chunk number instead of element number: proved false (C71_parallel_fails), with the exact behaviour for all inputs and task orders (C71_parallel_reads) and equality for constant inputs such as the example's own."
  },
  {
   "property": "C72",
   "status": "proved",
   "theorems": [
    "PackedSimd.Props.C72_binomial",
    "PackedSimd.Props.C72_risk_neutral",
    "PackedSimd.Props.C72_cnd_symmetric"
   ],
   "note": ""
  },
  {
   "property": "C73",
   "status": "partial",
   "theorems": [
    "PackedSimd.Props.C73_short_fails",
    "PackedSimd.Props.C73_scalar_partial",
    "PackedSimd.Props.C73_debug_partial"
   ],
   "note": "Proved false: every short slice gives undefined behaviour in builds without debug assertions (C73_short_fails). Proved: debug builds always panic, and the scalar functions always panic."
  },
  {
   "property": "C74",
   "status": "proved",
   "theorems": [
    "PackedSimd.Props.C74_scalar",
    "PackedSimd.Props.C74_par",
    "PackedSimd.Props.C74_simd",
    "PackedSimd.Props.C74_agree",
    "PackedSimd.Props.C74_f32",
    "PackedSimd.Props.C74_exact",
    "PackedSimd.Props.C74_par_panics"
   ],
   "note": "Laws holds for binary32 with unfused mul_adde (C74_f32) and for any commutative ring (C74_exact). With fused mul_adde on real floats the vector result may differ in the last bits from the scalar one; C75 still covers that case."
  },
  {
   "property": "C75",
   "status": "proved",
   "theorems": [
    "PackedSimd.Props.C75_schedule"
   ],
   "note": ""
  },
  {
   "property": "C76",
   "status": "partial",
   "theorems": [
    "PackedSimd.Props.C76_scalar_partial",
    "PackedSimd.Props.C76_inside_partial",
    "PackedSimd.Props.C76_outside_fails",
    "PackedSimd.Props.C76_reversed_fails"
   ],
   "note": "Proved false: a box touching the edge (C76_outside_fails) or a reversed z range (C76_reversed_fails) is undefined behaviour in the safe vector functions. Proved: the scalar function never has undefined behaviour, and the vector ones succeed for every box inside the grid."
  },
  {
   "property": "C77",
   "status": "partial",
   "theorems": [
    "PackedSimd.Props.C77_new_partial",
    "PackedSimd.Props.C77_debug_partial",
    "PackedSimd.Props.C77_wrap_fails"
   ],
   "note": "Proved false without overflow checks (C77_wrap_fails: 65536 x 65536 x 1). Proved: full initialisation whenever the cell count fits i32 and memory, and no undefined behaviour with overflow checks."
  },
  {
   "property": "C78",
   "status": "proved",
   "theorems": [
    "PackedSimd.Ex.Fannkuch.C78_flips_end",
    "PackedSimd.Ex.Fannkuch.C78_scalar",
    "PackedSimd.Ex.Fannkuch.C78_simd"
   ],
   "note": ""
  },
  {
   "property": "C79",
   "status": "proved",
   "theorems": [
    "PackedSimd.Ex.Fannkuch.C79_numbering",
    "PackedSimd.Ex.Fannkuch.C79_generator"
   ],
   "note": ""
  },
  {
   "property": "C80",
   "status": "proved",
   "theorems": [
    "PackedSimd.Ex.Fannkuch.C80_simd",
    "PackedSimd.Ex.Fannkuch.C80_scalar",
    "PackedSimd.Ex.Fannkuch.C80_agree"
   ],
   "note": "With overflow checks the claim is limited to n <= 10, where the sums are small by a counting bound; whether the true partial sums for n = 11..16 fit in i32 is not proved."
  },
  {
   "property": "C81",
   "status": "partial",
   "theorems": [
    "PackedSimd.Ex.Fannkuch.C81_main_partial",
    "PackedSimd.Ex.Fannkuch.C81_rejected",
    "PackedSimd.Ex.Fannkuch.C81_debug_fails",
    "PackedSimd.Ex.Fannkuch.C81_release_fails"
   ],
   "note": "Proved false for the scalar algorithm with 13 and 14 cards: panic with overflow checks (C81_debug_fails), only part of the arrangements visited without (C81_release_fails). Proved: both algorithms for 3..=12 cards (3..=10 with overflow checks), the SIMD algorithm for 13 and 14 without overflow checks, rejection of everything else."
  },
  {
   "property": "C82",
   "status": "proved",
   "theorems": [
    "PackedSimd.Ex.Nbody.C82_scalar",
    "PackedSimd.Ex.Nbody.C82_simd"
   ],
   "note": "Exact arithmetic (any field, any function as square root, sqrte equal to it). On f64 the programs round differently and sqrte is an estimate by its documentation; only C86 speaks of f64."
  },
  {
   "property": "C83",
   "status": "proved",
   "theorems": [
    "PackedSimd.Ex.Nbody.C83_scalar",
    "PackedSimd.Ex.Nbody.C83_simd"
   ],
   "note": ""
  },
  {
   "property": "C84",
   "status": "proved",
   "theorems": [
    "PackedSimd.Ex.Nbody.C84_scalar",
    "PackedSimd.Ex.Nbody.C84_simd"
   ],
   "note": ""
  },
  {
   "property": "C85",
   "status": "proved",
   "theorems": [
    "PackedSimd.Ex.Nbody.C85_run",
    "PackedSimd.Ex.Nbody.C85_unknown"
   ],
   "note": "Exact arithmetic, as C82. C85_run compares both programs with a table of its own."
  },
  {
   "property": "C86",
   "status": "proved",
   "theorems": [
    "PackedSimd.Ex.Nbody.C86_total"
   ],
   "note": ""
  },
  {
   "property": "C87",
   "status": "proved",
   "theorems": [
    "PackedSimd.Props.C87_vector_is_scalar",
    "PackedSimd.Props.C87_thread"
   ],
   "note": ""
  },
  {
   "property": "C88",
   "status": "proved",
   "theorems": [
    "PackedSimd.Props.C88_seeds",
    "PackedSimd.Props.C88_lfsr113"
   ],
   "note": ""
  },
  {
   "property": "C89",
   "status": "partial",
   "theorems": [
    "PackedSimd.Props.C89_alive_partial",
    "PackedSimd.Props.C89_other_lanes_partial",
    "PackedSimd.Props.C89_scalar_thread_fails",
    "PackedSimd.Props.C89_vector_thread_fails"
   ],
   "note": "Proved false: thread_rng seeds the scalar generator with 1 (first register empty forever) and lane 0 of the vector generator with 0 (three registers empty: each output is the previous one shifted by two bits). Proved: properly seeded generators stay so forever; lanes 2.. of the vector generator are properly seeded."
  },
  {
   "property": "C90",
   "status": "proved",
   "theorems": [
    "PackedSimd.Props.C90_value",
    "PackedSimd.Props.C90_unit_interval"
   ],
   "note": ""
  },
  {
   "property": "C91",
   "status": "proved",
   "theorems": [
    "PackedSimd.Props.C91_plane",
    "PackedSimd.Props.C91_sphere",
    "PackedSimd.Props.C91_unhit_lanes_kept"
   ],
   "note": ""
  },
  {
   "property": "C92",
   "status": "proved",
   "theorems": [
    "PackedSimd.Props.C92_packet_is_rays"
   ],
   "note": "Any ordered field and any square root function; on f32 the programs round differently, see C93."
  },
  {
   "property": "C93",
   "status": "partial",
   "theorems": [
    "PackedSimd.Props.C93_debug_partial",
    "PackedSimd.Props.C93_f32_fails"
   ],
   "note": "Proved false on f32 (C93_f32_fails): a ray that just touches a sphere of the scene is a hit for the scalar and a miss for the packet algorithm, whether mul_adde is fused or not. Proved: a debug build panics exactly if some lane is not almost equal to the scalar result, and otherwise returns what the release build returns."
  },
  {
   "property": "C94",
   "status": "proved",
   "theorems": [
    "PackedSimd.Props.C94_sphere",
    "PackedSimd.Props.C94_sphere_miss",
    "PackedSimd.Props.C94_plane"
   ],
   "note": "Real arithmetic (IsReal)."
  },
  {
   "property": "C95",
   "status": "proved",
   "theorems": [
    "PackedSimd.Props.C95_nearest"
   ],
   "note": "Real arithmetic (IsReal); Enters/Meets are the specification of Spec/Aobench.lean."
  },
  {
   "property": "C96",
   "status": "proved",
   "theorems": [
    "PackedSimd.Props.C96_basis"
   ],
   "note": "Real arithmetic."
  },
  {
   "property": "C97",
   "status": "proved",
   "theorems": [
    "PackedSimd.Props.C97_sample_direction"
   ],
   "note": "Real arithmetic."
  },
  {
   "property": "C98",
   "status": "proved",
   "theorems": [
    "PackedSimd.Props.C98_vector_is_scalar"
   ],
   "note": "Exact arithmetic (linearly ordered field with sin, cos, sqrt as in Spec.Ao.Exact); on f32 C93_f32_fails shows the two differ."
  },
  {
   "property": "C99",
   "status": "proved",
   "theorems": [
    "PackedSimd.Props.C99_tiled_is_scalar"
   ],
   "note": "Exact arithmetic."
  },
  {
   "property": "C100",
   "status": "proved",
   "theorems": [
    "PackedSimd.Props.C100_scalar_f32",
    "PackedSimd.Props.C100_tiled_f32",
    "PackedSimd.Props.C100_vector_f32"
   ],
   "note": "On f32; sqrt, sin, cos and the fused multiply-add are arbitrary functions."
  },
  {
   "property": "C101",
   "status": "proved",
   "theorems": [
    "PackedSimd.Props.C101_default",
    "PackedSimd.Props.C101_rand",
    "PackedSimd.Props.C101_scalar",
    "PackedSimd.Props.C101_vector",
    "PackedSimd.Props.C101_tiled"
   ],
   "note": ""
  },
  {
   "property": "C102",
   "status": "proved",
   "theorems": [
    "PackedSimd.Props.C102_scalar",
    "PackedSimd.Props.C102_direction"
   ],
   "note": ""
  },
  {
   "property": "C103",
   "status": "proved",
   "theorems": [
    "PackedSimd.Props.C103_vector",
    "PackedSimd.Props.C103_vector_is_scalar"
   ],
   "note": "Equality with the scalar renderer in exact arithmetic; the program itself over any arithmetic."
  },
  {
   "property": "C104",
   "status": "proved",
   "theorems": [
    "PackedSimd.Props.C104_tiled",
    "PackedSimd.Props.C104_lanes"
   ],
   "note": "C104_tiled over any arithmetic; C104_lanes in exact arithmetic."
  },
  {
   "property": "C105",
   "status": "partial",
   "theorems": [
    "PackedSimd.Props.C105_tiled_partial",
    "PackedSimd.Props.C105_parallel",
    "PackedSimd.Props.C105_short_fails"
   ],
   "note": "Proved false in general (C105_short_fails): fdata is a public Vec, and tiled::ao on an image whose fdata was shortened accesses memory outside it. Proved: all accesses are inside the first 3*w*h elements, so inside the image if fdata has the length given by Image::new; the parallel version is safe for every length."
  },
  {
   "property": "C106",
   "status": "proved",
   "theorems": [
    "PackedSimd.Props.C106_scalar",
    "PackedSimd.Props.C106_vector",
    "PackedSimd.Props.C106_tiled",
    "PackedSimd.Props.C106_scalar_is_serial",
    "PackedSimd.Props.C106_vector_is_serial",
    "PackedSimd.Props.C106_tiled_is_serial",
    "PackedSimd.Props.C106_no_columns",
    "PackedSimd.Props.C106_tiled_width"
   ],
   "note": "Any distribution of rows to threads and any interleaving of single memory accesses (Spec/Concurrent.lean)."
  },
  {
   "property": "C107",
   "status": "proved",
   "theorems": [
    "PackedSimd.Props.C107_scalar",
    "PackedSimd.Props.C107_vector",
    "PackedSimd.Props.C107_tiled",
    "PackedSimd.Props.C107_no_samples",
    "PackedSimd.Props.C107_parallel_scalar",
    "PackedSimd.Props.C107_parallel_vector",
    "PackedSimd.Props.C107_parallel_tiled"
   ],
   "note": "On f32; sqrt, sin, cos and the fused multiply-add are arbitrary functions."
  },
  {
   "property": "C108",
   "status": "proved",
   "theorems": [
    "PackedSimd.Props.C108_clamp",
    "PackedSimd.Props.C108_aos",
    "PackedSimd.Props.C108_soa",
    "PackedSimd.Props.C108_picture"
   ],
   "note": ""
  },
  {
   "property": "C109",
   "status": "proved",
   "theorems": [
    "PackedSimd.Props.C109_random_rand",
    "PackedSimd.Props.C109_random_randN",
    "PackedSimd.Props.C109_random",
    "PackedSimd.Props.C109_test"
   ],
   "note": ""
  },
  {
   "property": "C110",
   "status": "proved",
   "theorems": [
    "PackedSimd.Props.C110_real",
    "PackedSimd.Props.C110_max",
    "PackedSimd.Props.C110_min",
    "PackedSimd.Props.C110_min_positive",
    "PackedSimd.Props.C110_epsilon",
    "PackedSimd.Props.C110_special",
    "PackedSimd.Props.C110_uses"
   ],
   "note": "All 23 constants, all float vector types. The vector constants are splats of core constants; the core literals are transcribed into the model (core is not in /repo), and the theorem then shows the transcription to be the nearest float to the real number."
  },
  {
   "property": "C111",
   "status": "proved",
   "theorems": [
    "PackedSimd.Props.C111_add_sub",
    "PackedSimd.Props.C111_mul_div",
    "PackedSimd.Props.C111_mul_add",
    "PackedSimd.Props.C111_compare"
   ],
   "note": "Stated over the reals (Spec/FloatReal.lean). mul_add on s390x is not fused there (C63_s390x_fails), so it is excluded."
  },
  {
   "property": "C112",
   "status": "proved",
   "theorems": [
    "PackedSimd.Props.C112_sum",
    "PackedSimd.Props.C112_slice_sums",
    "PackedSimd.Props.C112_parallel_sum",
    "PackedSimd.Props.C112_dot"
   ],
   "note": "Holds for every bracketing and order of the summands, so for every target's reduction order and every work split. The parallel sum is the aligned case of C50 (the unaligned one is wrong, C50)."
  },
  {
   "property": "C113",
   "status": "partial",
   "theorems": [
    "PackedSimd.Props.C113_pbm",
    "PackedSimd.Props.C113_pbm_fails",
    "PackedSimd.Props.C113_ppm",
    "PackedSimd.Props.C113_black",
    "PackedSimd.Props.C113_program",
    "PackedSimd.Props.C113_program_panics"
   ],
   "note": "Proved for PPM files of any size, for PBM files whose width is a multiple of 8, and end to end for the program on such widths. False for PBM with other widths: a panic after the header, or success with a file too short to be read (C113_pbm_fails)."
  },
  {
   "property": "C114",
   "status": "partial",
   "theorems": [
    "PackedSimd.Props.C114_inside_partial",
    "PackedSimd.Props.C114_uninitialised_fails",
    "PackedSimd.Props.C114_transmute_fails"
   ],
   "note": "Sizes, bounds and initialisation at hand-out hold (C114_inside_partial); the contracts of set_len and of deallocation after transmute are violated, proved false for every non-empty picture (C114_uninitialised_fails, C114_transmute_fails)."
  },
  {
   "property": "C115",
   "status": "proved",
   "theorems": [
    "PackedSimd.Props.C115_call",
    "PackedSimd.Props.C115_runs",
    "PackedSimd.Props.C115_program",
    "PackedSimd.Props.C115_portable",
    "PackedSimd.Props.C115_left_out",
    "PackedSimd.Props.C115_pointer_width"
   ],
   "note": "Scalar code and the operations whose model has no target argument enter as `code`. Float max/min element are included for a fixed choice of which zero llvm's maxnum returns. Math functions (libm / SLEEF) are left out: C47, C63."
  },
  {
   "property": "C116",
   "status": "proved",
   "theorems": [
    "PackedSimd.Props.C116_stencil_step",
    "PackedSimd.Props.C116_stencil",
    "PackedSimd.Props.C116_options",
    "PackedSimd.Props.C116_mandelbrot_scalar",
    "PackedSimd.Props.C116_mandelbrot_simd"
   ],
   "note": "rayon itself is not modelled: its contract (par_chunks_mut hands out disjoint consecutive chunks, each task runs once, for_each returns after all tasks ended) is the model. Accesses are one element at a time and sequentially consistent, which is adequate because absence of races is proved in that model. Loads through shared references are not interleaved (nothing writes them meanwhile)."
  },
  {
   "property": "C117",
   "status": "proved",
   "theorems": [
    "PackedSimd.Props.C117_sqrt",
    "PackedSimd.Props.C117_computed",
    "PackedSimd.Props.C117_unique",
    "PackedSimd.Props.C117_sqrt_accurate",
    "PackedSimd.Props.C117_sqrt_of_square",
    "PackedSimd.Props.C117_sqrte",
    "PackedSimd.Props.C117_sqrte_accurate",
    "PackedSimd.Props.C117_rsqrte",
    "PackedSimd.Props.C117_rsqrte_special",
    "PackedSimd.Props.C117_recpre"
   ],
   "note": "Hypothesis SqrtCorrect: library functions computing square roots without an accuracy suffix are IEEE square roots (that is what simd_fsqrt and llvm.sqrt are specified to be). It is met by Flt.sqrt, a computed square root proved to satisfy the relation for every bit pattern. NaN payloads are left open."
  },
  {
   "property": "C118",
   "status": "partial",
   "theorems": [
    "PackedSimd.Props.C118_normalized",
    "PackedSimd.Props.C118_normalized_packet",
    "PackedSimd.Props.C118_sphere_normal",
    "PackedSimd.Props.C118_basis",
    "PackedSimd.Props.C118_basis_packet",
    "PackedSimd.Props.C118_direction",
    "PackedSimd.Props.C118_direction_packet",
    "PackedSimd.Props.C118_direction_tiled",
    "PackedSimd.Props.C118_estimate_fails"
   ],
   "note": "Hypotheses: sqrt (and for packets sqrte) is IEEE's square root; mul_adde rounds a*b+c once or twice (C48); sine and cosine of the one angle used are numbers in [-1,1] whose squares add up to 1 within epsilon <= 1/100 (libm's accuracy is not modelled). C118_estimate_fails shows that a sqrte within the 3.5 ulp SLEEF documents is not enough; whether SLEEF's actual function returns that value is not decided here. Intersection parameters (raySphere's t) are not analysed, only the normal built from the hit point."
  },
  {
   "property": "C119",
   "status": "proved",
   "theorems": [
    "PackedSimd.Props.C119_accurate",
    "PackedSimd.Props.C119_exact_norm",
    "PackedSimd.Props.C119_norm"
   ],
   "note": "Hypotheses: f64::sqrt is IEEE's square root (met by the model's Flt.sqrt, C117_computed); n even, at most 2^31, index arithmetic fits usize (otherwise C67 still gives equality of the programs). The rounding of the printed decimal is not part of this claim. The 78th-root-of-n factor is what ten rounds of power iteration guarantee from the all-ones vector without looking at the spectrum."
  },
  {
   "property": "C120",
   "status": "partial",
   "theorems": [
    "PackedSimd.Props.C120_from_bounds",
    "PackedSimd.Props.C120_exec",
    "PackedSimd.Props.C120_default",
    "PackedSimd.Props.C120_eq",
    "PackedSimd.Props.C120_assert_partial",
    "PackedSimd.Props.C120_assert_misses_fails",
    "PackedSimd.Props.C120_assert_panics_fails"
   ],
   "note": "The comparison is proved wrong on grids that are not square: with more columns than rows it never looks at the last cells (C120_assert_misses_fails), with fewer it reads past the end and panics on data that are close everywhere (C120_assert_panics_fails); C120_assert_partial is the full claim for n_x = n_y. Everything else is proved in full."
  },
  {
   "property": "C121",
   "status": "partial",
   "theorems": [
    "PackedSimd.Props.C121_int",
    "PackedSimd.Props.C121_mask",
    "PackedSimd.Props.C121_float_partial",
    "PackedSimd.Props.C121_sound_partial",
    "PackedSimd.Props.C121_nan_fails",
    "PackedSimd.Props.C121_sound_fails"
   ],
   "note": "Proved in full for integer and mask vectors. Proved false for floats: an unordered pair can never pass (its branch asserts both !(a == b) and !(a != b)), nor a pair with NaN after the deciding lane (C121_nan_fails); C121_float_partial says exactly what passes. Soundness for arbitrary operators is false: for different vectors `!=` and the converse of `<` are never looked at (C121_sound_fails); C121_sound_partial says what acceptance guarantees."
  },
  {
   "property": "C122",
   "status": "proved",
   "theorems": [
    "PackedSimd.Props.C122_numbers",
    "PackedSimd.Props.C122_outputs",
    "PackedSimd.Props.C122_full",
    "PackedSimd.Props.C122_scalar_thread",
    "PackedSimd.Props.C122_vector",
    "PackedSimd.Props.C122_vector_thread"
   ],
   "note": ""
  },
  {
   "property": "C123",
   "status": "partial",
   "theorems": [
    "PackedSimd.Props.C123_exact",
    "PackedSimd.Props.C123_escapes",
    "PackedSimd.Props.C123_exact_lanes",
    "PackedSimd.Props.C123_f64_partial",
    "PackedSimd.Props.C123_f64_margin",
    "PackedSimd.Props.C123_disc",
    "PackedSimd.Props.C123_real_axis",
    "PackedSimd.Props.C123_f64_fails",
    "PackedSimd.Props.C123_picture"
   ],
   "note": "Complete in exact arithmetic (both directions, every limit, scalar and vector). In f64 it is false in general: C123_f64_fails is a point of the set whose computed orbit leaves the circle at step 142 of 200. No such point was found for the program's own limit of 50. Proved in f64: orbits that keep an explicit margin from the circle of radius 2 (C123_f64_partial, C123_f64_margin), the points of the set on the real axis for every limit, the disc of radius 0.24, and these for the pixels of the program's pictures."
  },
  {
   "property": "C124",
   "status": "partial",
   "theorems": [
    "PackedSimd.Props.C124_scalar_partial",
    "PackedSimd.Props.C124_simd_partial",
    "PackedSimd.Props.C124_integers_partial",
    "PackedSimd.Props.C124_singular_fails",
    "PackedSimd.Props.C124_invertible_fails",
    "PackedSimd.Props.C124_overflow_fails"
   ],
   "note": "Proved for elements that are integers (up to 28 scalar, 20 vector) times a common power of two, where cofactors and determinant are exact. Missing: general matrices, for which the claim is false (C124_singular_fails, C124_invertible_fails, C124_overflow_fails). General matrices with a determinant that is not small: C132."
  },
  {
   "property": "C125",
   "status": "proved",
   "theorems": [
    "PackedSimd.Ex.Mains.C125_parse",
    "PackedSimd.Ex.Mains.C125_fixed",
    "PackedSimd.Ex.Mains.C125_shows_unique",
    "PackedSimd.Ex.Mains.C125_fannkuch",
    "PackedSimd.Ex.Mains.C125_fannkuch_rejects",
    "PackedSimd.Ex.Mains.C125_spectral",
    "PackedSimd.Ex.Mains.C125_spectral_zero",
    "PackedSimd.Ex.Mains.C125_spectral_rejects",
    "PackedSimd.Ex.Mains.C125_spectral_same",
    "PackedSimd.Ex.Mains.C125_nbody",
    "PackedSimd.Ex.Mains.C125_nbody_rejects"
   ],
   "note": ""
  },
  {
   "property": "C126",
   "status": "partial",
   "theorems": [
    "PackedSimd.Props.C126_scalar_partial",
    "PackedSimd.Props.C126_simd_partial",
    "PackedSimd.Props.C126_textbook",
    "PackedSimd.Props.C126_overpriced",
    "PackedSimd.Props.C126_fails",
    "PackedSimd.Props.C126_bounds"
   ],
   "note": "Proved: which lattice is priced (C126_scalar_partial, C126_simd_partial) and the bounds. The claim itself is false (C126_fails, C126_overpriced): the lattice has one period too few and starts one down move below s."
  },
  {
   "property": "C127",
   "status": "proved",
   "theorems": [
    "PackedSimd.Props.C127_scalar",
    "PackedSimd.Props.C127_simd",
    "PackedSimd.Props.C127_binomial"
   ],
   "note": "Hypotheses Market and F32Fns, met by coarse_market. The accuracy of exp, powf and sqrt is not modelled: the exact price is the one for the computed factors and payoffs. The test's tolerance of 1e-5 does not follow from the worst case."
  },
  {
   "property": "C128",
   "status": "proved",
   "theorems": [
    "PackedSimd.Props.C128_simd",
    "PackedSimd.Props.C128_par",
    "PackedSimd.Props.C128_scalar",
    "PackedSimd.Props.C128_agree",
    "PackedSimd.Props.C128_from_bounds",
    "PackedSimd.Props.C128_default"
   ],
   "note": "Worst-case bound; the exact evolution is the specification's own time step relation instantiated with real numbers. C128_default's 1/8 is a worst case: the tolerance of the example's own tests (1e-4) does not follow from it, but with an unfused multiply-add C120 gives equality."
  },
  {
   "property": "C129",
   "status": "proved",
   "theorems": [
    "PackedSimd.Props.C129_cnd",
    "PackedSimd.Props.C129_cnd_unit",
    "PackedSimd.Props.C129_scalar",
    "PackedSimd.Props.C129_simd",
    "PackedSimd.Props.C129_formula"
   ],
   "note": "Exact arithmetic with the real exp, ln and sqrt. callPrice is the discounted expected payoff (an integral against the Gaussian density); the closed formula is proved (C129_formula). The error of the polynomial is bounded on the whole half line: by sign of the derivative, with an integer polynomial checker evaluated by the kernel."
  },
  {
   "property": "C130",
   "status": "proved",
   "theorems": [
    "PackedSimd.Props.C130_cnd",
    "PackedSimd.Props.C130_cnd_simd",
    "PackedSimd.Props.C130_scalar",
    "PackedSimd.Props.C130_call",
    "PackedSimd.Props.C130_simd"
   ],
   "note": "ln and sqrt are unconstrained: their errors enter through d1 and d2 (C130_call). Literals are assumed rounded to nearest, which is what rustc does."
  },
  {
   "property": "C131",
   "status": "proved",
   "theorems": [
    "PackedSimd.Ex.Nbody.C131_scalar_step",
    "PackedSimd.Ex.Nbody.C131_scalar",
    "PackedSimd.Ex.Nbody.C131_simd_step",
    "PackedSimd.Ex.Nbody.C131_simd",
    "PackedSimd.Ex.Nbody.C131_offset_scalar",
    "PackedSimd.Ex.Nbody.C131_offset_simd",
    "PackedSimd.Ex.Nbody.C131_run_scalar",
    "PackedSimd.Ex.Nbody.C131_run_simd"
   ],
   "note": "Bound in terms of the states along the run (motion and impulses), which are not bounded themselves. The factor dt / r^3 enters as computed: both bodies of a pair get the same one, which is why its accuracy does not matter."
  },
  {
   "property": "C132",
   "status": "proved",
   "theorems": [
    "PackedSimd.Props.C132_scalar_none",
    "PackedSimd.Props.C132_scalar",
    "PackedSimd.Props.C132_simd_none",
    "PackedSimd.Props.C132_simd",
    "PackedSimd.Props.C132_agree",
    "PackedSimd.Props.C132_residual"
   ],
   "note": "Determinants below M^4/4096 are outside the error bound: singular and nearly singular matrices, on which C124_singular_fails and C124_invertible_fails show that both routines go wrong."
  },
  {
   "property": "C133",
   "status": "proved",
   "theorems": [
    "PackedSimd.Props.C133_scalar",
    "PackedSimd.Props.C133_simd"
   ],
   "note": ""
  },
  {
   "property": "C134",
   "status": "proved",
   "theorems": [
    "PackedSimd.Ex.Nbody.C134_scalar",
    "PackedSimd.Ex.Nbody.C134_simd",
    "PackedSimd.Ex.Nbody.C134_agree"
   ],
   "note": ""
  },
  {
   "property": "C135",
   "status": "proved",
   "theorems": [
    "PackedSimd.Ex.Nbody.C135_scalar",
    "PackedSimd.Ex.Nbody.C135_simd",
    "PackedSimd.Ex.Nbody.C135_agree"
   ],
   "note": ""
  },
  {
   "property": "C136",
   "status": "proved",
   "theorems": [
    "PackedSimd.Props.C136_plane",
    "PackedSimd.Props.C136_plane_packet",
    "PackedSimd.Props.C136_sphere",
    "PackedSimd.Props.C136_sphere_packet"
   ],
   "note": ""
  },
  {
   "property": "C137",
   "status": "proved",
   "theorems": [
    "PackedSimd.Props.C137_nearest",
    "PackedSimd.Props.C137_packet",
    "PackedSimd.Props.C137_scene",
    "PackedSimd.Props.C137_scene_packet"
   ],
   "note": ""
  },
  {
   "property": "C138",
   "status": "proved",
   "theorems": [
    "PackedSimd.Props.C138_scalar",
    "PackedSimd.Props.C138_vector",
    "PackedSimd.Props.C138_tiled",
    "PackedSimd.Props.C138_seen",
    "PackedSimd.Props.C138_seen_tiled"
   ],
   "note": ""
  },
  {
   "property": "C139",
   "status": "proved",
   "theorems": [
    "PackedSimd.Props.C139_scalar",
    "PackedSimd.Props.C139_random",
    "PackedSimd.Props.C139_test"
   ],
   "note": ""
  },
  {
   "property": "C140",
   "status": "proved",
   "theorems": [
    "PackedSimd.Props.C140_tiled",
    "PackedSimd.Props.C140_vector",
    "PackedSimd.Props.C140_random",
    "PackedSimd.Props.C140_test"
   ],
   "note": ""
  }
 ]
}