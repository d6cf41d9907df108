{
 "claims": [
  {
   "property": "C01",
   "status": "proved",
   "theorems": [
    "Ed448.Props.C01_scalar_add"
   ],
   "note": ""
  },
  {
   "property": "C02",
   "status": "proved",
   "theorems": [
    "Ed448.Props.C02_scalar_sub"
   ],
   "note": ""
  },
  {
   "property": "C03",
   "status": "proved",
   "theorems": [
    "Ed448.Props.C03_scalar_mul"
   ],
   "note": ""
  },
  {
   "property": "C04",
   "status": "proved",
   "theorems": [
    "Ed448.Props.C04_scalar_invert"
   ],
   "note": ""
  },
  {
   "property": "C05",
   "status": "proved",
   "theorems": [
    "Ed448.Props.C05_scalar_halve"
   ],
   "note": ""
  },
  {
   "property": "C06",
   "status": "proved",
   "theorems": [
    "Ed448.Props.C06_scalar_codec"
   ],
   "note": ""
  },
  {
   "property": "C07",
   "status": "proved",
   "theorems": [
    "Ed448.Props.C07_from_canonical_bytes",
    "Ed448.Props.C07_rfc8032_roundtrip"
   ],
   "note": ""
  },
  {
   "property": "C08",
   "status": "proved",
   "theorems": [
    "Ed448.Props.C08_wide_reduction"
   ],
   "note": ""
  },
  {
   "property": "C09",
   "status": "proved",
   "theorems": [
    "Ed448.Props.C09_scalar_random"
   ],
   "note": ""
  },
  {
   "property": "C10",
   "status": "proved",
   "theorems": [
    "Ed448.Props.C10_scalar_bits"
   ],
   "note": ""
  },
  {
   "property": "C100",
   "status": "proved",
   "theorems": [
    "Ed448.Props.C100_any_scalar",
    "Ed448.Props.C100_any_field",
    "Ed448.Props.C100_scalar_arithmetic",
    "Ed448.Props.C100_scalar_codec",
    "Ed448.Props.C100_field",
    "Ed448.Props.C100_values"
   ],
   "note": "C100_any_*: the text, run with an arbitrary structure of operations on machine integers (Ops), gives what the mechanical translation with the same operations gives. C100_scalar_*/C100_field: with the wrapping operations of a release build the text returns what the translation Gen of the debug build returns (SameBuild of C76), on all arrays of 14 words or limbs within the bound; C100_values restates four of them as arithmetic modulo the order and the prime. In op_mul, square, invert, from_bytes_mod_order_wide and the field's to_bytes the callees montgomery_multiply, add and strong_reduce are the texts of these functions as functions of arrays. Not covered: Scalar::from_canonical_bytes, ct_eq, conditional_negate, is_negative (C96 covers them through the translation). Trusted: the reader and the interpreter in Verif/Text, and the constants copied in Text/IntCrate."
  },
  {
   "property": "C101",
   "status": "proved",
   "theorems": [
    "Ed448.Props.C101_u32",
    "Ed448.Props.C101_u64",
    "Ed448.Props.C101_scalar",
    "Ed448.Props.C101_low_order",
    "Ed448.Props.C101_context",
    "Ed448.Props.C101_values"
   ],
   "note": "C101_u32/C101_u64: every constant of the two files, and zero, one and minus_one of the two prime_field.rs. C101_context: the constants with which C100 runs the integer code are those in the text. C101_values: the values, stated without the model; for the twisted base point see C49."
  },
  {
   "property": "C102",
   "status": "proved",
   "theorems": [
    "Ed448.Props.C102_table",
    "Ed448.Props.C102_select",
    "Ed448.Props.C102_double_and_add",
    "Ed448.Props.C102_variable_base",
    "Ed448.Props.C102_double_base",
    "Ed448.Props.C102_decaf",
    "Ed448.Props.C102_scalar_mod_four",
    "Ed448.Props.C102_scalar_mul",
    "Ed448.Props.C102_edwards",
    "Ed448.Props.C102_ladder",
    "Ed448.Props.C102_values"
   ],
   "note": "The text is run with the operations of the model on points (equal to the text by C99), wrapping machine integers, and what the texts of the callees return (ops1, ops2, ops3 are built in stages, scText by running the text of scalar.rs). C102_values restates the results for the untwisted curve and the ladder without the model. Not read from the text: the forms of the operators made by macros, the assigning operators, Sum."
  },
  {
   "property": "C103",
   "status": "proved",
   "theorems": [
    "Ed448.Props.C103_compress",
    "Ed448.Props.C103_decompress",
    "Ed448.Props.C103_decaf_decompress",
    "Ed448.Props.C103_values",
    "Ed448.Props.C103_from_canonical_bytes",
    "Ed448.Props.C103_canonical_values"
   ],
   "note": "The text is run with the field operations of the model (sqrt_ratio, is_negative, from_bytes and so on; C99 reads most of them from the text), with to_affine and to_extended as in C99. DecafPoint::compress is in C99. from_canonical_bytes is run with from_bytes, sub_extra and to_bytes (for ==) run from the text too, in a release build. Fn.plain rewrites three forms that the interpreter does not know; see Text/EncCrate."
  },
  {
   "property": "C11",
   "status": "partial",
   "theorems": [
    "Ed448.Props.C11_unreduced_false",
    "Ed448.Props.C11_unreduced_partial"
   ],
   "note": "The claim is false for the code: proved negation with witnesses, and the range where it holds. C77: the claim for the repaired source."
  },
  {
   "property": "C12",
   "status": "proved",
   "theorems": [
    "Ed448.Props.C12_scalar_field"
   ],
   "note": ""
  },
  {
   "property": "C13",
   "status": "proved",
   "theorems": [
    "Ed448.Props.C13_points_valid",
    "Ed448.Props.C13_all_points_reachable"
   ],
   "note": ""
  },
  {
   "property": "C14",
   "status": "proved",
   "theorems": [
    "Ed448.Props.C14_addition_law",
    "Ed448.Props.C14_group_laws"
   ],
   "note": ""
  },
  {
   "property": "C15",
   "status": "proved",
   "theorems": [
    "Ed448.Props.C15_eq_iff",
    "Ed448.Props.C15_eq_congruence",
    "Ed448.Props.C15_congruence_all"
   ],
   "note": ""
  },
  {
   "property": "C16",
   "status": "proved",
   "theorems": [
    "Ed448.Props.C16_scalar_mul"
   ],
   "note": ""
  },
  {
   "property": "C17",
   "status": "proved",
   "theorems": [
    "Ed448.Props.C17_linear",
    "Ed448.Props.C17_scalar_arith"
   ],
   "note": ""
  },
  {
   "property": "C18",
   "status": "proved",
   "theorems": [
    "Ed448.Props.C18_torsion_free",
    "Ed448.Props.C18_generator"
   ],
   "note": ""
  },
  {
   "property": "C19",
   "status": "proved",
   "theorems": [
    "Ed448.Props.C19_orders",
    "Ed448.Props.C19_cofactor",
    "Ed448.Props.C19_generator_multiples"
   ],
   "note": ""
  },
  {
   "property": "C20",
   "status": "proved",
   "theorems": [
    "Ed448.Props.C20_round_trip",
    "Ed448.Props.C20_round_trip_all"
   ],
   "note": ""
  },
  {
   "property": "C21",
   "status": "proved",
   "theorems": [
    "Ed448.Props.C21_compress_injective",
    "Ed448.Props.C21_injective_all",
    "Ed448.Props.C21_compress_value"
   ],
   "note": ""
  },
  {
   "property": "C22",
   "status": "proved",
   "theorems": [
    "Ed448.Props.C22_decompress_accepts"
   ],
   "note": ""
  },
  {
   "property": "C23",
   "status": "partial",
   "theorems": [
    "Ed448.Props.C23_encodings_unique_false",
    "Ed448.Props.C23_encodings_unique_partial",
    "Ed448.Props.C23_more_duplicates"
   ],
   "note": "The claim is false for the code: proved negation, and exactly which accepted strings are canonical. C77: the claim for the repaired source."
  },
  {
   "property": "C24",
   "status": "proved",
   "theorems": [
    "Ed448.Props.C24_torque"
   ],
   "note": ""
  },
  {
   "property": "C25",
   "status": "proved",
   "theorems": [
    "Ed448.Props.C25_round_trip",
    "Ed448.Props.C25_denominators",
    "Ed448.Props.C25_additive",
    "Ed448.Props.C25_dual",
    "Ed448.Props.C25_round_trip'",
    "Ed448.Props.C25_kernel"
   ],
   "note": ""
  },
  {
   "property": "C26",
   "status": "proved",
   "theorems": [
    "Ed448.Props.C26_routines_agree",
    "Ed448.Props.C26_multiple",
    "Ed448.Props.C26_double_base",
    "Ed448.Props.C26_double_base_edwards"
   ],
   "note": ""
  },
  {
   "property": "C27",
   "status": "proved",
   "theorems": [
    "Ed448.Props.C27_radix16"
   ],
   "note": ""
  },
  {
   "property": "C28",
   "status": "proved",
   "theorems": [
    "Ed448.Props.C28_table"
   ],
   "note": ""
  },
  {
   "property": "C29",
   "status": "proved",
   "theorems": [
    "Ed448.Props.C29_sum",
    "Ed448.Props.C29_sum_perm"
   ],
   "note": ""
  },
  {
   "property": "C30",
   "status": "proved",
   "theorems": [
    "Ed448.Props.C30_to_montgomery",
    "Ed448.Props.C30_on_curve",
    "Ed448.Props.C30_generator"
   ],
   "note": ""
  },
  {
   "property": "C31",
   "status": "partial",
   "theorems": [
    "Ed448.Props.C31_montgomery_mul_false",
    "Ed448.Props.C31_montgomery_mul_partial",
    "Ed448.Props.C31_even",
    "Ed448.Props.C31_odd_wrong",
    "Ed448.Props.C31_small"
   ],
   "note": "The claim is false for odd scalars (missing final swap): proved negation, exact value computed for all scalars, claim for even scalars. C77: the claim for the repaired source."
  },
  {
   "property": "C32",
   "status": "partial",
   "theorems": [
    "Ed448.Props.C32_commutes_false",
    "Ed448.Props.C32_commutes_partial"
   ],
   "note": "False for odd scalars; proved for even scalars, and what the Montgomery side computes for odd ones. C77: the claim for the repaired source."
  },
  {
   "property": "C33",
   "status": "proved",
   "theorems": [
    "Ed448.Props.C33_dh_agreement"
   ],
   "note": ""
  },
  {
   "property": "C34",
   "status": "proved",
   "theorems": [
    "Ed448.Props.C34_reads_mod_p"
   ],
   "note": ""
  },
  {
   "property": "C35",
   "status": "partial",
   "theorems": [
    "Ed448.Props.C35_low_order_false",
    "Ed448.Props.C35_low_order_partial"
   ],
   "note": "False for the non-canonical encodings p and p+1; proved for all others, with the exact exceptions. C77: the claim for the repaired source."
  },
  {
   "property": "C36",
   "status": "proved",
   "theorems": [
    "Ed448.Props.C36_decaf_valid"
   ],
   "note": ""
  },
  {
   "property": "C37",
   "status": "proved",
   "theorems": [
    "Ed448.Props.C37_round_trip"
   ],
   "note": ""
  },
  {
   "property": "C38",
   "status": "proved",
   "theorems": [
    "Ed448.Props.C38_unique"
   ],
   "note": ""
  },
  {
   "property": "C39",
   "status": "proved",
   "theorems": [
    "Ed448.Props.C39_accepts"
   ],
   "note": ""
  },
  {
   "property": "C40",
   "status": "proved",
   "theorems": [
    "Ed448.Props.C40_equals_iff_compress",
    "Ed448.Props.C40_congr",
    "Ed448.Props.C40_equivalence"
   ],
   "note": ""
  },
  {
   "property": "C41",
   "status": "proved",
   "theorems": [
    "Ed448.Props.C41_prime_order_group",
    "Ed448.Props.C41_count"
   ],
   "note": ""
  },
  {
   "property": "C42",
   "status": "proved",
   "theorems": [
    "Ed448.Props.C42_scalar_mul",
    "Ed448.Props.C42_distributes"
   ],
   "note": ""
  },
  {
   "property": "C43",
   "status": "proved",
   "theorems": [
    "Ed448.Props.C43_identity_encoding"
   ],
   "note": ""
  },
  {
   "property": "C44",
   "status": "proved",
   "theorems": [
    "Ed448.Props.C44_u32_arithmetic",
    "Ed448.Props.C44_u32_reachable",
    "Ed448.Props.C44_u32_no_panic"
   ],
   "note": ""
  },
  {
   "property": "C45",
   "status": "proved",
   "theorems": [
    "Ed448.Props.C45_u32_codec",
    "Ed448.Props.C45_u32_eq"
   ],
   "note": ""
  },
  {
   "property": "C46",
   "status": "proved",
   "theorems": [
    "Ed448.Props.C46_invert",
    "Ed448.Props.C46_inverse_square_root",
    "Ed448.Props.C46_sqrt_ratio",
    "Ed448.Props.C46_sqrt_ratio_complete"
   ],
   "note": ""
  },
  {
   "property": "C47",
   "status": "proved",
   "theorems": [
    "Ed448.Props.C47_programs",
    "Ed448.Props.C47_any_operands",
    "Ed448.Props.C47_twisted"
   ],
   "note": "For any two lawful backends and any program over the library's functions, valid points or not; instantiated at the 32-bit backend (fully modelled) and the 64-bit backend (over any functions meeting the fiat-crypto contract whose relax copies)."
  },
  {
   "property": "C48",
   "status": "partial",
   "theorems": [
    "Ed448.Props.C48_bounds_false",
    "Ed448.Props.C48_relax_outside_contract",
    "Ed448.Props.C48_contract_insufficient",
    "Ed448.Props.C48_bounds_partial",
    "Ed448.Props.C48_sequences_within_bounds"
   ],
   "note": "False as stated: the constants minus_one, EDWARDS_D, TWISTED_D and TWO_TIMES_TWISTED_D exceed the tight bound, so every multiplication by them calls relax outside its documented precondition. Proved: all other calls stay in bounds, and the results are right if relax copies its argument, which the published fiat-crypto source does. C77: the claim for the repaired constants."
  },
  {
   "property": "C49",
   "status": "proved",
   "theorems": [
    "Ed448.Props.C49_field_constants",
    "Ed448.Props.C49_decaf_factor",
    "Ed448.Props.C49_base_points",
    "Ed448.Props.C49_base_order",
    "Ed448.Props.C49_scalar_constants",
    "Ed448.Props.C49_order_comment_false"
   ],
   "note": "Both backends. The comment on BASEPOINT_ORDER has the wrong sign; the value is right."
  },
  {
   "property": "C50",
   "status": "proved",
   "theorems": [
    "Ed448.Props.C50_unfinished_panics"
   ],
   "note": ""
  },
  {
   "property": "C51",
   "status": "proved",
   "theorems": [
    "Ed448.Props.C51_equals_iff",
    "Ed448.Props.C51_image",
    "Ed448.Props.C51_translate",
    "Ed448.Props.C51_root",
    "Ed448.Props.C51_equivalence"
   ],
   "note": ""
  },
  {
   "property": "C52",
   "status": "partial",
   "theorems": [
    "Ed448.Props.C52_cached_add_false",
    "Ed448.Props.C52_cached_add_wrong",
    "Ed448.Props.C52_cached_add_partial",
    "Ed448.Props.C52_round_trip_false",
    "Ed448.Props.C52_round_trip_partial",
    "Ed448.Props.C52_documented_form",
    "Ed448.Props.C52_identity"
   ],
   "note": "The claim is false for the code (the cached form lacks the documented halving): proved that both paths give doubled coordinates for every point, never the right point, and that the addition formula is right for the documented form. C77: the claim for the repaired source."
  },
  {
   "property": "C53",
   "status": "partial",
   "theorems": [
    "Ed448.Props.C53_scalar_mul_partial",
    "Ed448.Props.C53_variable_base_partial",
    "Ed448.Props.C53_double_and_add_partial",
    "Ed448.Props.C53_ladder_partial",
    "Ed448.Props.C53_inversion_partial"
   ],
   "note": "Proved: the sequence of field operations and their operands does not depend on the scalar (and the multiplications of the scalar inversion do not depend on its argument). C68 and C69 add branches, loop counts, indices and shift amounts at the level of the source, for scalars, both field backends and curves. Missing: running time and memory accesses of compiled code, that is, the compiler and the processor."
  },
  {
   "property": "C54",
   "status": "proved",
   "theorems": [
    "Ed448.Props.C54_complete_on_image",
    "Ed448.Props.C54_exceptional_iff",
    "Ed448.Props.C54_twisted_add_complete_false"
   ],
   "note": ""
  },
  {
   "property": "C55",
   "status": "proved",
   "theorems": [
    "Ed448.Props.C55_on_curve",
    "Ed448.Props.C55_affine_law",
    "Ed448.Props.C55_to_affine"
   ],
   "note": ""
  },
  {
   "property": "C56",
   "status": "proved",
   "theorems": [
    "Ed448.Props.C56_addition_routines",
    "Ed448.Props.C56_ext_eq",
    "Ed448.Props.C56_conversions"
   ],
   "note": ""
  },
  {
   "property": "C57",
   "status": "proved",
   "theorems": [
    "Ed448.Props.C57_scalar_tests",
    "Ed448.Props.C57_scalar_inversion_test",
    "Ed448.Props.C57_scalar_bytes_tests",
    "Ed448.Props.C57_edwards_tests",
    "Ed448.Props.C57_twisted_tests",
    "Ed448.Props.C57_lookup_test",
    "Ed448.Props.C57_montgomery_test",
    "Ed448.Props.C57_decaf_tests",
    "Ed448.Props.C57_rfc7748",
    "Ed448.Props.C57_rfc8032",
    "Ed448.Props.C57_negate_test",
    "Ed448.Props.C57_karatsuba_tests"
   ],
   "note": "A finite table by nature: evaluated by the kernel on one backend and carried to all lawful backends by C47. test_debug prints only; test_sanity_check_index_mut is an example beside C61."
  },
  {
   "property": "C58",
   "status": "proved",
   "theorems": [
    "Ed448.Props.C58_verify_iff",
    "Ed448.Props.C58_sign_verifies",
    "Ed448.Props.C58_unique_S"
   ],
   "note": "SHAKE256 outputs are inputs of the programs."
  },
  {
   "property": "C59",
   "status": "proved",
   "theorems": [
    "Ed448.Props.C59_x448",
    "Ed448.Props.C59_dh",
    "Ed448.Props.C59_public_key"
   ],
   "note": ""
  },
  {
   "property": "C60",
   "status": "proved",
   "theorems": [
    "Ed448.Props.C60_edwards_operators",
    "Ed448.Props.C60_scalar_on_the_left",
    "Ed448.Props.C60_twisted_eq",
    "Ed448.Props.C60_encoding_eq",
    "Ed448.Props.C60_is_zero"
   ],
   "note": ""
  },
  {
   "property": "C61",
   "status": "proved",
   "theorems": [
    "Ed448.Props.C61_index",
    "Ed448.Props.C61_index_mut",
    "Ed448.Props.C61_small_values",
    "Ed448.Props.C61_eq",
    "Ed448.Props.C61_square"
   ],
   "note": ""
  },
  {
   "property": "C62",
   "status": "proved",
   "theorems": [
    "Ed448.Props.C62_zero_output",
    "Ed448.Props.C62_twist",
    "Ed448.Props.C62_orders"
   ],
   "note": ""
  },
  {
   "property": "C63",
   "status": "proved",
   "theorems": [
    "Ed448.Props.C63_same_output",
    "Ed448.Props.C63_public_keys",
    "Ed448.Props.C63_same_inputs"
   ],
   "note": ""
  },
  {
   "property": "C64",
   "status": "proved",
   "theorems": [
    "Ed448.Props.C64_source_scalar_ring",
    "Ed448.Props.C64_source_scalar_invert",
    "Ed448.Props.C64_source_scalar_codec",
    "Ed448.Props.C64_source_scalar_digits"
   ],
   "note": ""
  },
  {
   "property": "C65",
   "status": "proved",
   "theorems": [
    "Ed448.Props.C65_source_field_arithmetic",
    "Ed448.Props.C65_source_field_codec"
   ],
   "note": ""
  },
  {
   "property": "C66",
   "status": "proved",
   "theorems": [
    "Ed448.Props.C66_source_backend_u32",
    "Ed448.Props.C66_source_backend_fiat"
   ],
   "note": "The 64-bit statement is relative to the documented contract of the external crate."
  },
  {
   "property": "C67",
   "status": "proved",
   "theorems": [
    "Ed448.Props.C67_source_edwards_group",
    "Ed448.Props.C67_source_edwards_codec",
    "Ed448.Props.C67_source_montgomery",
    "Ed448.Props.C67_source_decaf_group",
    "Ed448.Props.C67_source_decaf_codec"
   ],
   "note": ""
  },
  {
   "property": "C68",
   "status": "proved",
   "theorems": [
    "Ed448.Props.C68_scalar_arithmetic",
    "Ed448.Props.C68_scalar_codec",
    "Ed448.Props.C68_field_u32",
    "Ed448.Props.C68_backends"
   ],
   "note": "The external fiat-crypto functions are assumed to show nothing."
  },
  {
   "property": "C69",
   "status": "proved",
   "theorems": [
    "Ed448.Props.C69_scalar_mul",
    "Ed448.Props.C69_group",
    "Ed448.Props.C69_codec",
    "Ed448.Props.C69_field",
    "Ed448.Props.C69_leaks"
   ],
   "note": ""
  },
  {
   "property": "C70",
   "status": "proved",
   "theorems": [
    "Ed448.Props.C70_add_iff",
    "Ed448.Props.C70_sub_iff"
   ],
   "note": ""
  },
  {
   "property": "C71",
   "status": "proved",
   "theorems": [
    "Ed448.Props.C71_encodings",
    "Ed448.Props.C71_unused_bits",
    "Ed448.Props.C71_strict"
   ],
   "note": ""
  },
  {
   "property": "C72",
   "status": "proved",
   "theorems": [
    "Ed448.Props.C72_ladder",
    "Ed448.Props.C72_swapped",
    "Ed448.Props.C72_swapped_commutes",
    "Ed448.Props.C72_same_for_even"
   ],
   "note": ""
  },
  {
   "property": "C73",
   "status": "proved",
   "theorems": [
    "Ed448.Props.C73_low_order",
    "Ed448.Props.C73_reduced"
   ],
   "note": ""
  },
  {
   "property": "C74",
   "status": "proved",
   "theorems": [
    "Ed448.Props.C74_cached_add",
    "Ed448.Props.C74_halved"
   ],
   "note": ""
  },
  {
   "property": "C75",
   "status": "proved",
   "theorems": [
    "Ed448.Props.C75_scalar_tests",
    "Ed448.Props.C75_scalar_inversion_test",
    "Ed448.Props.C75_u32_tests",
    "Ed448.Props.C75_fiat_test",
    "Ed448.Props.C75_edwards_tests",
    "Ed448.Props.C75_twisted_tests",
    "Ed448.Props.C75_scalar_mul_tests",
    "Ed448.Props.C75_decaf_tests"
   ],
   "note": "The curve tests are evaluated on the exact field; C57 and C47 carry the model's answers to every lawful backend."
  },
  {
   "property": "C76",
   "status": "proved",
   "theorems": [
    "Ed448.Props.C76_release_scalar_arithmetic",
    "Ed448.Props.C76_release_scalar_codec",
    "Ed448.Props.C76_release_field_u32",
    "Ed448.Props.C76_release_field",
    "Ed448.Props.C76_release_scalar_mul",
    "Ed448.Props.C76_release_points",
    "Ed448.Props.C76_release_differs"
   ],
   "note": "About the mechanical translation with wrapping arithmetic; usize has 32 bits; Choice::from keeps its check. The 64-bit wrapper and the functions not listed contain no arithmetic that can overflow."
  },
  {
   "property": "C77",
   "status": "proved",
   "theorems": [
    "Ed448.Props.C77_scalars",
    "Ed448.Props.C77_claim_C11",
    "Ed448.Props.C77_scalars_same",
    "Ed448.Props.C77_decompress",
    "Ed448.Props.C77_decompress_unique",
    "Ed448.Props.C77_ladder",
    "Ed448.Props.C77_commutes",
    "Ed448.Props.C77_low_order",
    "Ed448.Props.C77_conservative",
    "Ed448.Props.C77_cached",
    "Ed448.Props.C77_bounds",
    "Ed448.Props.C77_scalar_tests",
    "Ed448.Props.C77_wide_test",
    "Ed448.Props.C77_decompress_tests",
    "Ed448.Props.C77_ladder_test"
   ],
   "note": "About the mechanical translation of the source with the patches in repairs/ applied."
  },
  {
   "property": "C78",
   "status": "proved",
   "theorems": [
    "Ed448.Props.C78_accepts",
    "Ed448.Props.C78_same",
    "Ed448.Props.C78_interoperates",
    "Ed448.Props.C78_rfc_round_trip"
   ],
   "note": "The RFC's algorithms are transcribed in Spec/Rfc9496.lean. Its hash-to-group map is not in the crate."
  },
  {
   "property": "C79",
   "status": "proved",
   "theorems": [
    "Ed448.Props.C79_compress",
    "Ed448.Props.C79_decompress",
    "Ed448.Props.C79_difference",
    "Ed448.Props.C79_repaired"
   ],
   "note": "The RFC's algorithms are transcribed in Spec/Rfc8032.lean. C79_difference says exactly where the source departs from the RFC."
  },
  {
   "property": "C80",
   "status": "proved",
   "theorems": [
    "Ed448.Props.C80_repaired",
    "Ed448.Props.C80_even",
    "Ed448.Props.C80_x448"
   ],
   "note": "The RFC's algorithms are transcribed in Spec/Rfc7748.lean. For odd scalars the source departs from the RFC: C31, C72."
  },
  {
   "property": "C81",
   "status": "proved",
   "theorems": [
    "Ed448.Props.C81_special_soundness",
    "Ed448.Props.C81_nonce_reuse",
    "Ed448.Props.C81_simulate",
    "Ed448.Props.C81_same_distribution",
    "Ed448.Props.C81_small_order_key",
    "Ed448.Props.C81_cofactored_iff",
    "Ed448.Props.C81_cofactor",
    "Ed448.Props.C81_cofactor_differs",
    "Ed448.Props.C81_batch_complete",
    "Ed448.Props.C81_batch_sound"
   ],
   "note": "The outputs of SHAKE256 are inputs; nothing is claimed about hashing."
  },
  {
   "property": "C82",
   "status": "proved",
   "theorems": [
    "Ed448.Props.C82_dh",
    "Ed448.Props.C82_oprf",
    "Ed448.Props.C82_blinding",
    "Ed448.Props.C82_hiding",
    "Ed448.Props.C82_binding",
    "Ed448.Props.C82_homomorphic",
    "Ed448.Props.C82_equal_logs",
    "Ed448.Props.C82_equal_logs_complete"
   ],
   "note": ""
  },
  {
   "property": "C83",
   "status": "proved",
   "theorems": [
    "Ed448.Props.C83_scalars",
    "Ed448.Props.C83_release_scalars",
    "Ed448.Props.C83_ladder",
    "Ed448.Props.C83_cached",
    "Ed448.Props.C83_decompress",
    "Ed448.Props.C83_low_order",
    "Ed448.Props.C83_release_curve"
   ],
   "note": "About the mechanical translations with leakage and with wrapping arithmetic of the source with the patches in repairs/ applied."
  },
  {
   "property": "C84",
   "status": "proved",
   "theorems": [
    "Ed448.Props.C84_public_key",
    "Ed448.Props.C84_dom4",
    "Ed448.Props.C84_prefix_free",
    "Ed448.Props.C84_binding",
    "Ed448.Props.C84_collision",
    "Ed448.Props.C84_sign",
    "Ed448.Props.C84_verify_repaired",
    "Ed448.Props.C84_verify",
    "Ed448.Props.C84_complete",
    "Ed448.Props.C84_x448",
    "Ed448.Props.C84_decaf",
    "Ed448.Props.C84_decaf_agreement",
    "Ed448.Props.C84_rfc_vectors",
    "Ed448.Props.C84_vectors",
    "Ed448.Props.C84_vector_rejected"
   ],
   "note": "the hash is any function; SHAKE256 (Spec/Shake256) only for the vectors. On the source as it is verification accepts more than the RFC because its decoder does (C23, C71)"
  },
  {
   "property": "C85",
   "status": "proved",
   "theorems": [
    "Ed448.Props.C85_sign",
    "Ed448.Props.C85_sign_repaired",
    "Ed448.Props.C85_x448",
    "Ed448.Props.C85_decaf"
   ],
   "note": "observations of the library's functions; what the hash shows is not part of it"
  },
  {
   "property": "C86",
   "status": "proved",
   "theorems": [
    "Ed448.Props.C86_source",
    "Ed448.Props.C86_release",
    "Ed448.Props.C86_backends"
   ],
   "note": ""
  },
  {
   "property": "C87",
   "status": "proved",
   "theorems": [
    "Ed448.Props.C87_programs",
    "Ed448.Props.C87_silent"
   ],
   "note": ""
  },
  {
   "property": "C88",
   "status": "proved",
   "theorems": [
    "Ed448.Props.C88_edwards",
    "Ed448.Props.C88_sum",
    "Ed448.Props.C88_decaf",
    "Ed448.Props.C88_twisted",
    "Ed448.Props.C88_bytes",
    "Ed448.Props.C88_arrays",
    "Ed448.Props.C88_trace_group",
    "Ed448.Props.C88_trace_mul",
    "Ed448.Props.C88_trace_twisted",
    "Ed448.Props.C88_trace_bytes",
    "Ed448.Props.C88_trace_on_curve",
    "Ed448.Props.C88_trace_arrays",
    "Ed448.Props.C88_release"
   ],
   "note": ""
  },
  {
   "property": "C89",
   "status": "proved",
   "theorems": [
    "Ed448.Props.C89_random",
    "Ed448.Props.C89_uniform",
    "Ed448.Props.C89_public_key",
    "Ed448.Props.C89_independent",
    "Ed448.Props.C89_trace",
    "Ed448.Props.C89_release",
    "Ed448.Props.C89_repaired"
   ],
   "note": ""
  },
  {
   "property": "C90",
   "status": "proved",
   "theorems": [
    "Ed448.Props.C90_related",
    "Ed448.Props.C90_repaired",
    "Ed448.Props.C90_original",
    "Ed448.Props.C90_equal",
    "Ed448.Props.C90_spec"
   ],
   "note": ""
  },
  {
   "property": "C91",
   "status": "proved",
   "theorems": [
    "Ed448.Props.C91_related",
    "Ed448.Props.C91_original",
    "Ed448.Props.C91_same",
    "Ed448.Props.C91_scalars",
    "Ed448.Props.C91_decoder",
    "Ed448.Props.C91_low_order",
    "Ed448.Props.C91_ladder"
   ],
   "note": ""
  },
  {
   "property": "C92",
   "status": "proved",
   "theorems": [
    "Ed448.Props.C92_field",
    "Ed448.Props.C92_formulas",
    "Ed448.Props.C92_scalar_mul",
    "Ed448.Props.C92_group",
    "Ed448.Props.C92_codec"
   ],
   "note": "about the translation with leakage; operations of the field interface are counted, not machine instructions"
  },
  {
   "property": "C93",
   "status": "proved",
   "theorems": [
    "Ed448.Props.C93_count",
    "Ed448.Props.C93_infinity",
    "Ed448.Props.C93_classes",
    "Ed448.Props.C93_points",
    "Ed448.Props.C93_equals"
   ],
   "note": ""
  },
  {
   "property": "C94",
   "status": "proved",
   "theorems": [
    "Ed448.Props.C94_secrets",
    "Ed448.Props.C94_points",
    "Ed448.Props.C94_representation",
    "Ed448.Props.C94_backends",
    "Ed448.Props.C94_hash",
    "Ed448.Props.C94_zeroize"
   ],
   "note": "For the text without flags ({:?}); the formatting rules of the standard library are written out in Model/Debug.lean."
  },
  {
   "property": "C95",
   "status": "proved",
   "theorems": [
    "Ed448.Props.C95_embedding",
    "Ed448.Props.C95_transfer",
    "Ed448.Props.C95_cyclic",
    "Ed448.Props.C95_invariants"
   ],
   "note": "About the mathematical curve that the constants of the source were proved to describe (C19, C49). Bounds 2^192 and 2^167 come from the primes of l-1 and l'-1 that occur in their Pratt certificates."
  },
  {
   "property": "C96",
   "status": "proved",
   "theorems": [
    "Ed448.Props.C96_scalar",
    "Ed448.Props.C96_field32",
    "Ed448.Props.C96_field64",
    "Ed448.Props.C96_field",
    "Ed448.Props.C96_edwards",
    "Ed448.Props.C96_twisted",
    "Ed448.Props.C96_montgomery",
    "Ed448.Props.C96_decaf"
   ],
   "note": "The list is complete: every definition of Gen/Scalar, U32, Fiat and Curve occurs, except the pieces into which the translator cuts karatsuba::mul and square. Scalar::random is in C89. The 64-bit functions are equal for any functions in place of those of fiat-crypto."
  },
  {
   "property": "C97",
   "status": "proved",
   "theorems": [
    "Ed448.Props.C97_order",
    "Ed448.Props.C97_equations",
    "Ed448.Props.C97_isogeny",
    "Ed448.Props.C97_cofactor",
    "Ed448.Props.C97_ladder_step",
    "Ed448.Props.C97_zero_denominator",
    "Ed448.Props.C97_table",
    "Ed448.Props.C97_decaf_factor",
    "Ed448.Props.C97_niels",
    "Ed448.Props.C97_sub_extended",
    "Ed448.Props.C97_costs",
    "Ed448.Props.C97_weak_reduce",
    "Ed448.Props.C97_bias"
   ],
   "note": "On the translated source. Comments that are false are refuted in the same theorem that says what holds."
  },
  {
   "property": "C98",
   "status": "proved",
   "theorems": [
    "Ed448.Props.C98_i128",
    "Ed448.Props.C98_i64",
    "Ed448.Props.C98_total",
    "Ed448.Props.C98_narrow",
    "Ed448.Props.C98_elements",
    "Ed448.Props.C98_too_narrow",
    "Ed448.Props.C98_mul",
    "Ed448.Props.C98_square",
    "Ed448.Props.C98_mul_bound",
    "Ed448.Props.C98_square_bound"
   ],
   "note": "The translation with the signed type as a parameter and the translation of the source with i64 are written by tools/gen_narrow.py; C98_i128 and C98_i64 hold by rfl."
  },
  {
   "property": "C99",
   "status": "proved",
   "theorems": [
    "Ed448.Props.C99_extensible",
    "Ed448.Props.C99_twisted",
    "Ed448.Props.C99_twisted_affine",
    "Ed448.Props.C99_projective",
    "Ed448.Props.C99_edwards",
    "Ed448.Props.C99_edwards_affine",
    "Ed448.Props.C99_montgomery",
    "Ed448.Props.C99_field",
    "Ed448.Props.C99_decaf",
    "Ed448.Props.C99_ristretto"
   ],
   "note": "Returns/Changes text names head name args r: reading the text, taking the function name from the impl block with this head and running it on args gives r (for Changes: leaves the parameters as r). Callees are the model functions. Trusted: the reader and the interpreter in Verif/Text (types are skipped, references are values). Functions with macros (other than assert!), while or match are dropped by the reader and are not claimed here; C96 covers them through the mechanical translation."
  }
 ]
}
