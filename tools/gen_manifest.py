#!/usr/bin/env python3
"""Writes MANIFEST.json."""
import json, os
C = []
def claim(p, status, thms, note=""):
    C.append({"property": p, "status": status, "theorems": ["Ed448.Props." + t for t in thms], "note": note})

claim("C01", "proved", ["C01_scalar_add"])
claim("C02", "proved", ["C02_scalar_sub"])
claim("C03", "proved", ["C03_scalar_mul"])
claim("C04", "proved", ["C04_scalar_invert"])
claim("C05", "proved", ["C05_scalar_halve"])
claim("C06", "proved", ["C06_scalar_codec"])
claim("C07", "proved", ["C07_from_canonical_bytes", "C07_rfc8032_roundtrip"])
claim("C08", "proved", ["C08_wide_reduction"])
claim("C09", "proved", ["C09_scalar_random"])
claim("C10", "proved", ["C10_scalar_bits"])
claim("C11", "partial", ["C11_unreduced_false", "C11_unreduced_partial"],
      "The claim is false for the code: proved negation with witnesses, and the range where it holds. C77: the claim for the repaired source.")
claim("C12", "proved", ["C12_scalar_field"])
claim("C27", "proved", ["C27_radix16"])
claim("C44", "proved", ["C44_u32_arithmetic", "C44_u32_reachable", "C44_u32_no_panic"])
claim("C45", "proved", ["C45_u32_codec", "C45_u32_eq"])
claim("C46", "proved", ["C46_invert", "C46_inverse_square_root", "C46_sqrt_ratio", "C46_sqrt_ratio_complete"])
claim("C13", "proved", ["C13_points_valid", "C13_all_points_reachable"])
claim("C14", "proved", ["C14_addition_law", "C14_group_laws"])
claim("C15", "proved", ["C15_eq_iff", "C15_eq_congruence", "C15_congruence_all"])
claim("C16", "proved", ["C16_scalar_mul"])
claim("C17", "proved", ["C17_linear", "C17_scalar_arith"])
claim("C18", "proved", ["C18_torsion_free", "C18_generator"])
claim("C19", "proved", ["C19_orders", "C19_cofactor", "C19_generator_multiples"])
claim("C20", "proved", ["C20_round_trip", "C20_round_trip_all"])
claim("C21", "proved", ["C21_compress_injective", "C21_injective_all", "C21_compress_value"])
claim("C22", "proved", ["C22_decompress_accepts"])
claim("C23", "partial", ["C23_encodings_unique_false", "C23_encodings_unique_partial", "C23_more_duplicates"],
      "The claim is false for the code: proved negation, and exactly which accepted strings are canonical. C77: the claim for the repaired source.")
claim("C24", "proved", ["C24_torque"])
claim("C25", "proved", ["C25_round_trip", "C25_denominators", "C25_additive", "C25_dual", "C25_round_trip'", "C25_kernel"])
claim("C26", "proved", ["C26_routines_agree", "C26_multiple", "C26_double_base", "C26_double_base_edwards"])
claim("C28", "proved", ["C28_table"])
claim("C29", "proved", ["C29_sum", "C29_sum_perm"])
claim("C30", "proved", ["C30_to_montgomery", "C30_on_curve", "C30_generator"])
claim("C31", "partial", ["C31_montgomery_mul_false", "C31_montgomery_mul_partial", "C31_even", "C31_odd_wrong", "C31_small"],
      "The claim is false for odd scalars (missing final swap): proved negation, exact value computed for all scalars, claim for even scalars. C77: the claim for the repaired source.")
claim("C32", "partial", ["C32_commutes_false", "C32_commutes_partial"],
      "False for odd scalars; proved for even scalars, and what the Montgomery side computes for odd ones. C77: the claim for the repaired source.")
claim("C33", "proved", ["C33_dh_agreement"])
claim("C34", "proved", ["C34_reads_mod_p"])
claim("C35", "partial", ["C35_low_order_false", "C35_low_order_partial"],
      "False for the non-canonical encodings p and p+1; proved for all others, with the exact exceptions. C77: the claim for the repaired source.")
claim("C36", "proved", ["C36_decaf_valid"])
claim("C37", "proved", ["C37_round_trip"])
claim("C38", "proved", ["C38_unique"])
claim("C39", "proved", ["C39_accepts"])
claim("C40", "proved", ["C40_equals_iff_compress", "C40_congr", "C40_equivalence"])
claim("C41", "proved", ["C41_prime_order_group", "C41_count"])
claim("C42", "proved", ["C42_scalar_mul", "C42_distributes"])
claim("C43", "proved", ["C43_identity_encoding"])
claim("C50", "proved", ["C50_unfinished_panics"])
claim("C51", "proved", ["C51_equals_iff", "C51_image", "C51_translate", "C51_root", "C51_equivalence"])
claim("C52", "partial", ["C52_cached_add_false", "C52_cached_add_wrong", "C52_cached_add_partial", "C52_round_trip_false", "C52_round_trip_partial", "C52_documented_form", "C52_identity"],
      "The claim is false for the code (the cached form lacks the documented halving): proved that both paths give doubled coordinates for every point, never the right point, and that the addition formula is right for the documented form. C77: the claim for the repaired source.")
claim("C55", "proved", ["C55_on_curve", "C55_affine_law", "C55_to_affine"])
claim("C56", "proved", ["C56_addition_routines", "C56_ext_eq", "C56_conversions"])
claim("C47", "proved",
      ["C47_programs", "C47_any_operands", "C47_twisted"],
      "For any two lawful backends and any program over the library's functions, valid points or not; instantiated "
      "at the 32-bit backend (fully modelled) and the 64-bit backend (over any functions meeting the "
      "fiat-crypto contract whose relax copies).")
claim("C48", "partial",
      ["C48_bounds_false", "C48_relax_outside_contract", "C48_contract_insufficient",
       "C48_bounds_partial", "C48_sequences_within_bounds"],
      "False as stated: the constants minus_one, EDWARDS_D, TWISTED_D and TWO_TIMES_TWISTED_D exceed "
      "the tight bound, so every multiplication by them calls relax outside its documented "
      "precondition. Proved: all other calls stay in bounds, and the results are right if relax copies "
      "its argument, which the published fiat-crypto source does. C77: the claim for the repaired constants.")
claim("C49", "proved",
      ["C49_field_constants", "C49_decaf_factor", "C49_base_points", "C49_base_order",
       "C49_scalar_constants", "C49_order_comment_false"],
      "Both backends. The comment on BASEPOINT_ORDER has the wrong sign; the value is right.")
claim("C53", "partial",
      ["C53_scalar_mul_partial", "C53_variable_base_partial", "C53_double_and_add_partial",
       "C53_ladder_partial", "C53_inversion_partial"],
      "Proved: the sequence of field operations and their operands does not depend on the scalar (and the "
      "multiplications of the scalar inversion do not depend on its argument). C68 and C69 add branches, loop counts, "
      "indices and shift amounts at the level of the source, for scalars, both field backends and curves. Missing: "
      "running time and memory accesses of compiled code, that is, the compiler and the processor.")
claim("C57", "proved",
      ["C57_scalar_tests", "C57_scalar_inversion_test", "C57_scalar_bytes_tests", "C57_edwards_tests",
       "C57_twisted_tests", "C57_lookup_test", "C57_montgomery_test", "C57_decaf_tests", "C57_rfc7748",
       "C57_rfc8032", "C57_negate_test", "C57_karatsuba_tests"],
      "A finite table by nature: evaluated by the kernel on one backend and carried to all lawful "
      "backends by C47. test_debug prints only; test_sanity_check_index_mut is an example beside C61.")
claim("C60", "proved", ["C60_edwards_operators", "C60_scalar_on_the_left", "C60_twisted_eq", "C60_encoding_eq", "C60_is_zero"])
claim("C61", "proved", ["C61_index", "C61_index_mut", "C61_small_values", "C61_eq", "C61_square"])
claim("C58", "proved", ["C58_verify_iff", "C58_sign_verifies", "C58_unique_S"],
      "SHAKE256 outputs are inputs of the programs.")
claim("C59", "proved", ["C59_x448", "C59_dh", "C59_public_key"])
claim("C54", "proved", ["C54_complete_on_image", "C54_exceptional_iff", "C54_twisted_add_complete_false"])
claim("C62", "proved", ["C62_zero_output", "C62_twist", "C62_orders"])
claim("C63", "proved", ["C63_same_output", "C63_public_keys", "C63_same_inputs"])

claim("C64", "proved", ["C64_source_scalar_ring", "C64_source_scalar_invert", "C64_source_scalar_codec", "C64_source_scalar_digits"])
claim("C65", "proved", ["C65_source_field_arithmetic", "C65_source_field_codec"])
claim("C66", "proved", ["C66_source_backend_u32", "C66_source_backend_fiat"], "The 64-bit statement is relative to the documented contract of the external crate.")
claim("C67", "proved", ["C67_source_edwards_group", "C67_source_edwards_codec", "C67_source_montgomery", "C67_source_decaf_group", "C67_source_decaf_codec"])
claim("C68", "proved", ["C68_scalar_arithmetic", "C68_scalar_codec", "C68_field_u32", "C68_backends"],
      "The external fiat-crypto functions are assumed to show nothing.")
claim("C69", "proved", ["C69_scalar_mul", "C69_group", "C69_codec", "C69_field", "C69_leaks"])
claim("C70", "proved", ["C70_add_iff", "C70_sub_iff"])
claim("C71", "proved", ["C71_encodings", "C71_unused_bits", "C71_strict"])
claim("C72", "proved", ["C72_ladder", "C72_swapped", "C72_swapped_commutes", "C72_same_for_even"])
claim("C73", "proved", ["C73_low_order", "C73_reduced"])
claim("C74", "proved", ["C74_cached_add", "C74_halved"])
claim("C75", "proved", ["C75_scalar_tests", "C75_scalar_inversion_test", "C75_u32_tests", "C75_fiat_test",
                        "C75_edwards_tests", "C75_twisted_tests", "C75_scalar_mul_tests", "C75_decaf_tests"],
      "The curve tests are evaluated on the exact field; C57 and C47 carry the model's answers to every lawful backend.")
claim("C76", "proved", ["C76_release_scalar_arithmetic", "C76_release_scalar_codec", "C76_release_field_u32",
                        "C76_release_field", "C76_release_scalar_mul", "C76_release_points", "C76_release_differs"],
      "About the mechanical translation with wrapping arithmetic; usize has 32 bits; Choice::from keeps its check. "
      "The 64-bit wrapper and the functions not listed contain no arithmetic that can overflow.")
claim("C77", "proved", ["C77_scalars", "C77_claim_C11", "C77_scalars_same", "C77_decompress", "C77_decompress_unique",
                        "C77_ladder", "C77_commutes", "C77_low_order", "C77_conservative", "C77_cached", "C77_bounds",
                        "C77_scalar_tests", "C77_wide_test", "C77_decompress_tests", "C77_ladder_test"],
      "About the mechanical translation of the source with the patches in repairs/ applied.")
claim("C78", "proved", ["C78_accepts", "C78_same", "C78_interoperates", "C78_rfc_round_trip"],
      "The RFC's algorithms are transcribed in Spec/Rfc9496.lean. Its hash-to-group map is not in the crate.")
claim("C79", "proved", ["C79_compress", "C79_decompress", "C79_difference", "C79_repaired"],
      "The RFC's algorithms are transcribed in Spec/Rfc8032.lean. C79_difference says exactly where the source departs from the RFC.")
claim("C80", "proved", ["C80_repaired", "C80_even", "C80_x448"],
      "The RFC's algorithms are transcribed in Spec/Rfc7748.lean. For odd scalars the source departs from the RFC: C31, C72.")
claim("C81", "proved", ["C81_special_soundness", "C81_nonce_reuse", "C81_simulate", "C81_same_distribution",
                        "C81_small_order_key", "C81_cofactored_iff", "C81_cofactor", "C81_cofactor_differs",
                        "C81_batch_complete", "C81_batch_sound"],
      "The outputs of SHAKE256 are inputs; nothing is claimed about hashing.")
claim("C82", "proved", ["C82_dh", "C82_oprf", "C82_blinding", "C82_hiding", "C82_binding", "C82_homomorphic",
                        "C82_equal_logs", "C82_equal_logs_complete"])
claim("C83", "proved", ["C83_scalars", "C83_release_scalars", "C83_ladder", "C83_cached", "C83_decompress",
                        "C83_low_order", "C83_release_curve"],
      "About the mechanical translations with leakage and with wrapping arithmetic of the source with the patches in repairs/ applied.")
claim("C84", "proved", ["C84_public_key", "C84_dom4", "C84_prefix_free", "C84_binding", "C84_collision", "C84_sign", "C84_verify_repaired", "C84_verify", "C84_complete", "C84_x448",
                        "C84_decaf", "C84_decaf_agreement", "C84_rfc_vectors", "C84_vectors", "C84_vector_rejected"],
      "the hash is any function; SHAKE256 (Spec/Shake256) only for the vectors. On the source as it is verification "
      "accepts more than the RFC because its decoder does (C23, C71)")
claim("C85", "proved", ["C85_sign", "C85_sign_repaired", "C85_x448", "C85_decaf"],
      "observations of the library's functions; what the hash shows is not part of it")
claim("C86", "proved", ["C86_source", "C86_release", "C86_backends"])
claim("C87", "proved", ["C87_programs", "C87_silent"])
claim("C88", "proved", ["C88_edwards", "C88_sum", "C88_decaf", "C88_twisted", "C88_bytes", "C88_arrays", "C88_trace_group", "C88_trace_mul",
    "C88_trace_twisted", "C88_trace_bytes", "C88_trace_on_curve", "C88_trace_arrays", "C88_release"])
claim("C89", "proved", ["C89_random", "C89_uniform", "C89_public_key", "C89_independent", "C89_trace", "C89_release", "C89_repaired"])
claim("C90", "proved", ["C90_related", "C90_repaired", "C90_original", "C90_equal", "C90_spec"])
claim("C91", "proved", ["C91_related", "C91_original", "C91_same", "C91_scalars", "C91_decoder", "C91_low_order", "C91_ladder"])
claim("C92", "proved", ["C92_field", "C92_formulas", "C92_scalar_mul", "C92_group", "C92_codec"],
      "about the translation with leakage; operations of the field interface are counted, not machine instructions")
claim("C93", "proved", ["C93_count", "C93_infinity", "C93_classes", "C93_points", "C93_equals"])
claim("C94", "proved", ["C94_secrets", "C94_points", "C94_representation", "C94_backends", "C94_hash", "C94_zeroize"],
 "For the text without flags ({:?}); the formatting rules of the standard library are written out in Model/Debug.lean.")
claim("C95", "proved", ["C95_embedding", "C95_transfer", "C95_cyclic", "C95_invariants"],
 "About the mathematical curve that the constants of the source were proved to describe (C19, C49). Bounds 2^192 and 2^167 come from the primes of l-1 and l'-1 that occur in their Pratt certificates.")
claim("C96", "proved", ["C96_scalar", "C96_field32", "C96_field64", "C96_field", "C96_edwards", "C96_twisted", "C96_montgomery", "C96_decaf"],
 "The list is complete: every definition of Gen/Scalar, U32, Fiat and Curve occurs, except the pieces into which the translator cuts karatsuba::mul and square. Scalar::random is in C89. The 64-bit functions are equal for any functions in place of those of fiat-crypto.")
claim("C97", "proved", ["C97_order", "C97_equations", "C97_isogeny", "C97_cofactor", "C97_ladder_step", "C97_zero_denominator", "C97_table", "C97_decaf_factor", "C97_niels", "C97_sub_extended", "C97_costs", "C97_weak_reduce", "C97_bias"],
 "On the translated source. Comments that are false are refuted in the same theorem that says what holds.")
claim("C98", "proved", ["C98_i128", "C98_i64", "C98_total", "C98_narrow", "C98_elements", "C98_too_narrow", "C98_mul", "C98_square", "C98_mul_bound", "C98_square_bound"],
 "The translation with the signed type as a parameter and the translation of the source with i64 are written by tools/gen_narrow.py; C98_i128 and C98_i64 hold by rfl.")
claim("C99", "proved", ["C99_extensible", "C99_twisted", "C99_twisted_affine", "C99_projective", "C99_edwards", "C99_edwards_affine", "C99_montgomery", "C99_field", "C99_decaf", "C99_ristretto"],
      "Returns/Changes text names head name args r: reading the text, taking the function name from the impl block with this head and running it on args gives r (for Changes: leaves the parameters as r). Callees are the model functions. Trusted: the reader and the interpreter in Verif/Text (types are skipped, references are values). Functions with macros (other than assert!), while or match are dropped by the reader and are not claimed here; C96 covers them through the mechanical translation.")
claim("C100", "proved", ["C100_any_scalar", "C100_any_field", "C100_scalar_arithmetic", "C100_scalar_codec", "C100_field", "C100_values"],
      "C100_any_*: the text, run with an arbitrary structure of operations on machine integers (Ops), gives what the mechanical translation with the same operations gives. C100_scalar_*/C100_field: with the wrapping operations of a release build the text returns what the translation Gen of the debug build returns (SameBuild of C76), on all arrays of 14 words or limbs within the bound; C100_values restates four of them as arithmetic modulo the order and the prime. In op_mul, square, invert, from_bytes_mod_order_wide and the field's to_bytes the callees montgomery_multiply, add and strong_reduce are the texts of these functions as functions of arrays. Not covered: Scalar::from_canonical_bytes, ct_eq, conditional_negate, is_negative (C96 covers them through the translation). Trusted: the reader and the interpreter in Verif/Text, and the constants copied in Text/IntCrate.")
claim("C101", "proved", ["C101_u32", "C101_u64", "C101_scalar", "C101_low_order", "C101_context", "C101_values"],
      "C101_u32/C101_u64: every constant of the two files, and zero, one and minus_one of the two prime_field.rs. C101_context: the constants with which C100 runs the integer code are those in the text. C101_values: the values, stated without the model; for the twisted base point see C49.")
claim("C102", "proved", ["C102_table", "C102_select", "C102_double_and_add", "C102_variable_base", "C102_double_base", "C102_decaf", "C102_scalar_mod_four", "C102_scalar_mul", "C102_edwards", "C102_ladder", "C102_values"],
      "The text is run with the operations of the model on points (equal to the text by C99), wrapping machine integers, and what the texts of the callees return (ops1, ops2, ops3 are built in stages, scText by running the text of scalar.rs). C102_values restates the results for the untwisted curve and the ladder without the model. Not read from the text: the forms of the operators made by macros, the assigning operators, Sum.")
claim("C103", "proved", ["C103_compress", "C103_decompress", "C103_decaf_decompress", "C103_values", "C103_from_canonical_bytes", "C103_canonical_values"],
      "The text is run with the field operations of the model (sqrt_ratio, is_negative, from_bytes and so on; C99 reads most of them from the text), with to_affine and to_extended as in C99. DecafPoint::compress is in C99. from_canonical_bytes is run with from_bytes, sub_extra and to_bytes (for ==) run from the text too, in a release build. Fn.plain rewrites three forms that the interpreter does not know; see Text/EncCrate.")
path = os.path.join(os.path.dirname(os.path.abspath(__file__)), "..", "MANIFEST.json")
with open(path, "w") as f:
    json.dump({"claims": sorted(C, key=lambda c: c["property"])}, f, indent=1)
    f.write("\n")
