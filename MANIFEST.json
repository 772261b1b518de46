{
 "claims": [
  {
   "property": "C01",
   "status": "proved",
   "theorems": [
    "Verif.Csprng.C01_generator_outputs_table_slice",
    "Verif.Csprng.C01_default_generator",
    "Verif.Csprng.C01_bad_range_panics",
    "Verif.Csprng.C01_debug_panics_near_table_end"
   ],
   "note": "Release builds: full statement. Debug builds: proved when the bound is not in the last 7 AES blocks of the table; the last theorem shows that a debug build panics there."
  },
  {
   "property": "C02",
   "status": "proved",
   "theorems": [
    "Verif.Csprng.C02_fork_splits_stream"
   ],
   "note": "Stated on output streams of parent and children."
  },
  {
   "property": "C03",
   "status": "proved",
   "theorems": [
    "Verif.Csprng.C03_no_byte_output_twice",
    "Verif.Csprng.C03_default_generator",
    "Verif.Csprng.C03_violated_by_overflowing_fork"
   ],
   "note": "Histories of any length over any family. The last theorem is the witness that the non overflow condition is necessary in release builds."
  },
  {
   "property": "C04",
   "status": "proved",
   "theorems": [
    "Verif.Csprng.C04_remaining_bytes",
    "Verif.Csprng.C04_is_bounded"
   ],
   "note": "Saturation: when 2^128-16 or more bytes remain the returned value is only known to lie in [2^128-16, 2^128-1]."
  },
  {
   "property": "C05",
   "status": "partial",
   "theorems": [
    "Verif.Csprng.C05_fork_outcome_partial",
    "Verif.Csprng.C05_bytes_left",
    "Verif.Csprng.C05_violated_by_overflow",
    "Verif.Csprng.C05_violated_by_table_wrap"
   ],
   "note": "The full claim is false of the code: overflowing requests (release) and requests running over the end of the table are granted (two witness theorems). Proved for all other requests."
  },
  {
   "property": "C06",
   "status": "proved",
   "theorems": [
    "Verif.Csprng.C06_par_fork_eq_fork"
   ],
   "note": "Every schedule."
  },
  {
   "property": "C07",
   "status": "proved",
   "theorems": [
    "Verif.Csprng.C07_index_arithmetic",
    "Verif.Csprng.C07_distance"
   ],
   "note": ""
  },
  {
   "property": "C08",
   "status": "proved",
   "theorems": [
    "Verif.Decomp.C08_closest_representable",
    "Verif.Decomp.C08_boundary_precision_release_wrong"
   ],
   "note": "The second theorem is a finding: key generation accepts b*l = w, where rounding is wrong in release builds."
  },
  {
   "property": "C09",
   "status": "proved",
   "theorems": [
    "Verif.Decomp.C09_decompose"
   ],
   "note": ""
  },
  {
   "property": "C10",
   "status": "proved",
   "theorems": [
    "Verif.Decomp.C10_recompose"
   ],
   "note": ""
  },
  {
   "property": "C11",
   "status": "partial",
   "theorems": [
    "Verif.Decomp.C11_decompose_tensor",
    "Verif.Decomp.C11_fill_tensor_with_recompose_partial",
    "Verif.Decomp.C11_fill_tensor_not_fresh",
    "Verif.Decomp.C11_violated_by_accumulation"
   ],
   "note": "Tensor decomposition fully proved. The recomposition adds to the previous content instead of replacing it (witness theorem), so the documented 'fills' is proved only for a zero tensor."
  },
  {
   "property": "C12",
   "status": "proved",
   "theorems": [
    "Verif.Lwe.C12_decrypt_is_phase",
    "Verif.Lwe.C12_encrypt_decrypt",
    "Verif.Lwe.C12_debug_binary",
    "Verif.Lwe.C12_debug_ternary_panics"
   ],
   "note": "C12_debug_ternary_panics is a finding: debug builds panic with ternary keys."
  },
  {
   "property": "C13",
   "status": "proved",
   "theorems": [
    "Verif.Lwe.C13_discard_add",
    "Verif.Lwe.C13_fuse_add",
    "Verif.Lwe.C13_discard_sub",
    "Verif.Lwe.C13_fuse_sub",
    "Verif.Lwe.C13_discard_opp",
    "Verif.Lwe.C13_fuse_opp",
    "Verif.Lwe.C13_discard_mul_cleartext",
    "Verif.Lwe.C13_fuse_mul_cleartext",
    "Verif.Lwe.C13_discard_add_plaintext",
    "Verif.Lwe.C13_fuse_add_plaintext",
    "Verif.Lwe.C13_discard_sub_plaintext",
    "Verif.Lwe.C13_fuse_sub_plaintext",
    "Verif.Lwe.C13_dimension_mismatch",
    "Verif.Lwe.C13_history"
   ],
   "note": ""
  },
  {
   "property": "C14",
   "status": "partial",
   "theorems": [
    "Verif.Lwe.C14_affine_partial",
    "Verif.Lwe.C14_affine_errors",
    "Verif.Lwe.C14_violated"
   ],
   "note": "The code adds to the previous content of the output instead of discarding it (witness C14_violated); the documented result is proved for an output of phase zero."
  },
  {
   "property": "C15",
   "status": "proved",
   "theorems": [
    "Verif.Lwe.C15_trivial",
    "Verif.Glwe.C15_glwe_trivial"
   ],
   "note": ""
  },
  {
   "property": "C20",
   "status": "proved",
   "theorems": [
    "Verif.Random.C20_uniform",
    "Verif.Random.C20_uniform_tensor",
    "Verif.Random.C20_uniform_binary",
    "Verif.Random.C20_uniform_ternary",
    "Verif.Random.C20_uniform_lsb",
    "Verif.Random.C20_uniform_msb",
    "Verif.Random.C20_zero_lsb_release_wrong",
    "Verif.Random.C20_gaussian_pair"
   ],
   "note": "C20_zero_lsb_release_wrong is a finding."
  },
  {
   "property": "C50",
   "status": "partial",
   "theorems": [
    "Verif.Random.C50_fork_failure_partial",
    "Verif.Random.C50_violated"
   ],
   "note": "A failing fork of the two-stream generator can advance the mask stream (witness C50_violated)."
  },
  {
   "property": "C16",
   "status": "proved",
   "theorems": [
    "Verif.Lwe.C16_keyswitch",
    "Verif.Lwe.C16_error_bound",
    "Verif.Lwe.C16_generated_key"
   ],
   "note": ""
  },
  {
   "property": "C17",
   "status": "proved",
   "theorems": [
    "Verif.Lwe.C17_lwe",
    "Verif.Lwe.C17_lwe_mask_state",
    "Verif.Lwe.C17_lwe_none",
    "Verif.Lwe.C17_lwe_list",
    "Verif.Lwe.C17_keyswitch_key",
    "Verif.Glwe.C17_glwe",
    "Verif.Glwe.C17_glwe_list",
    "Verif.Glwe.C17_ggsw",
    "Verif.Glwe.C17_bootstrap_key"
   ],
   "note": ""
  },
  {
   "property": "C18",
   "status": "partial",
   "theorems": [
    "Verif.Lwe.C18_lwe_list_schedule",
    "Verif.Lwe.C18_lwe_list_elements",
    "Verif.Lwe.C18_lwe_list_masks_partial",
    "Verif.Lwe.C18_lwe_list_noise_differs",
    "Verif.Lwe.C18_empty_list_panics",
    "Verif.Glwe.C18_ggsw_schedule",
    "Verif.Glwe.C18_ggsw_par_eq_seq",
    "Verif.Glwe.C18_bootstrap_key"
   ],
   "note": "GGSW ciphertexts and bootstrap keys: fully proved. LWE lists: parallel and sequential encryption agree on masks but not on noise (witness C18_lwe_list_noise_differs), and an empty list panics in parallel."
  },
  {
   "property": "C19",
   "status": "proved",
   "theorems": [
    "Verif.Lwe.C19_lwe",
    "Verif.Lwe.C19_lwe_tight",
    "Verif.Glwe.C19_ggsw_masks",
    "Verif.Glwe.C19_ggsw_only_noise_fails",
    "Verif.Pks.C19_glwe",
    "Verif.Pks.C19_glwe_list_masks",
    "Verif.Pks.C19_bsk_masks",
    "Verif.Pks.C19_bsk_only_noise_fails",
    "Verif.Pks.C19_private_key_masks",
    "Verif.Pks.C19_private_key_only_noise_fails",
    "Verif.Pks.C19_cbs_masks",
    "Verif.Gsw.C19_gsw_masks"
   ],
   "note": "LWE, GLWE, GGSW, GSW, bootstrap keys, private functional keyswitch keys and circuit bootstrap keys: masks are consecutive words of the stream, budgets are exact."
  },
  {
   "property": "C21",
   "status": "proved",
   "theorems": [
    "Verif.Poly.C21_convolution",
    "Verif.Poly.C21_add_mul",
    "Verif.Poly.C21_sub_mul",
    "Verif.Poly.C21_comm",
    "Verif.Poly.C21_assoc",
    "Verif.Poly.C21_distrib",
    "Verif.Poly.C21_multisum",
    "Verif.Poly.C21_several",
    "Verif.Poly.C21_faithful",
    "Verif.Poly.C21_debug_binary",
    "Verif.Poly.C21_debug_ternary_panics"
   ],
   "note": "Over every commutative ring; machine words are BitVec w. The debug-build overflow check of the accumulating products is covered by the last two theorems."
  },
  {
   "property": "C22",
   "status": "partial",
   "theorems": [
    "Verif.Poly.C22_karatsuba_partial",
    "Verif.Poly.C22_small_sizes_diverge",
    "Verif.Poly.C22_powers_of_two_partial"
   ],
   "note": "Holds for N = 64*2^k. The full claim is false: for N < 64 the recursion never stops (proved)."
  },
  {
   "property": "C23",
   "status": "proved",
   "theorems": [
    "Verif.Poly.C23_monomial_mul",
    "Verif.Poly.C23_monomial_div",
    "Verif.Poly.C23_monomial_mul_coeff",
    "Verif.Poly.C23_inverse",
    "Verif.Poly.C23_period",
    "Verif.Poly.C23_as_product",
    "Verif.Poly.C23_list"
   ],
   "note": ""
  },
  {
   "property": "C24",
   "status": "proved",
   "theorems": [
    "Verif.Glwe.C24_decrypt_encrypt",
    "Verif.Glwe.C24_encrypt_ok",
    "Verif.Glwe.C24_encrypt_zero",
    "Verif.Glwe.C24_list"
   ],
   "note": ""
  },
  {
   "property": "C25",
   "status": "proved",
   "theorems": [
    "Verif.Glwe.C25_sample_extraction",
    "Verif.Glwe.C25_words",
    "Verif.Glwe.C25_panics"
   ],
   "note": ""
  },
  {
   "property": "C26",
   "status": "partial",
   "theorems": [
    "Verif.Glwe.C26_par_encrypt",
    "Verif.Glwe.C26_encrypt",
    "Verif.Glwe.C26_bootstrap_key",
    "Verif.Glwe.C26_trivial_in_place_partial",
    "Verif.Glwe.C26_trivial_new",
    "Verif.Glwe.C26_trivial_violated"
   ],
   "note": "Encryption and bootstrap keys fully proved. The in-place trivial encryption does not clear the bodies (witness C26_trivial_violated)."
  },
  {
   "property": "C27",
   "status": "proved",
   "theorems": [
    "Verif.Pbs.C27_external_product",
    "Verif.Pbs.C27_error_bound",
    "Verif.Pbs.C27_exact",
    "Verif.Pbs.C27_ntt_rounding",
    "Verif.Pbs.C27_discarding",
    "Verif.Pbs.C27_discarding_phase",
    "Verif.Ntt.ntt_accurate"
   ],
   "note": "For every transform meeting Transform.Accurate (the FFT enters only through that error hypothesis); exact_accurate gives an instance. ntt_accurate proves it for the NTT."
  },
  {
   "property": "C28",
   "status": "proved",
   "theorems": [
    "Verif.Pbs.C28_cmux"
   ],
   "note": "Same hypothesis on the transform as C27; both backends."
  },
  {
   "property": "C29",
   "status": "proved",
   "theorems": [
    "Verif.Pbs.C29_modulus_switch",
    "Verif.Pbs.C29_offset",
    "Verif.Pbs.C29_panics",
    "Verif.Pbs.C29_limit_overflow"
   ],
   "note": "At 2N = 2^(w-1) the rounding overflows (C29_limit_overflow)."
  },
  {
   "property": "C30",
   "status": "proved",
   "theorems": [
    "Verif.Pbs.C30_blind_rotation"
   ],
   "note": "Binary LWE keys of any length; both backends."
  },
  {
   "property": "C31",
   "status": "proved",
   "theorems": [
    "Verif.Pbs.C31_bootstrap",
    "Verif.Pbs.C31_switched_phase",
    "Verif.Pbs.C31_lookup",
    "Verif.Pbs.C31_trivial_accumulator",
    "Verif.Pbs.C31_generated_key",
    "Verif.Ntt.C31_ntt",
    "Verif.Ntt.C31_ntt_shipped64",
    "Verif.Ntt.C31_ntt_shipped32"
   ],
   "note": "C31_generated_key links to keys generated by the code with bounded noise. C31_ntt*: NTT backend without hypothesis on the transform."
  },
  {
   "property": "C34",
   "status": "proved",
   "theorems": [
    "Verif.Ntt.C34_round_trip",
    "Verif.Ntt.C34_forward",
    "Verif.Ntt.index_safe",
    "Verif.Ntt.C34_shipped"
   ],
   "note": "For every table meeting the twiddle relations, instantiated for the 12 shipped tables."
  },
  {
   "property": "C35",
   "status": "proved",
   "theorems": [
    "Verif.Ntt.C35_convolution",
    "Verif.Ntt.C35_product",
    "Verif.Ntt.C35_shipped"
   ],
   "note": "Sums of products accumulated in the transformed domain, any number of terms."
  },
  {
   "property": "C36",
   "status": "proved",
   "theorems": [
    "Verif.Ntt.C36_shipped",
    "Verif.Ntt.P32_128.C36_table",
    "Verif.Ntt.P32_256.C36_table",
    "Verif.Ntt.P32_512.C36_table",
    "Verif.Ntt.P32_1024.C36_table",
    "Verif.Ntt.P32_2048.C36_table",
    "Verif.Ntt.P32_4096.C36_table",
    "Verif.Ntt.P64_128.C36_table",
    "Verif.Ntt.P64_256.C36_table",
    "Verif.Ntt.P64_512.C36_table",
    "Verif.Ntt.P64_1024.C36_table",
    "Verif.Ntt.P64_2048.C36_table",
    "Verif.Ntt.P64_4096.C36_table"
   ],
   "note": "Kernel evaluation of a checker proved sound (check_sound) over the complete shipped tables, which is the whole range of the quantifier; the Lean tables are generated from /repo by tools/gen_ntt_params.py."
  },
  {
   "property": "C37",
   "status": "proved",
   "theorems": [
    "Verif.Ntt.C37_operations",
    "Verif.Ntt.C37_reduce",
    "Verif.Ntt.C37_room_needed"
   ],
   "note": "For every modulus whose square fits the word, as for the shipped moduli."
  },
  {
   "property": "C38",
   "status": "proved",
   "theorems": [
    "Verif.Ntt.C38_into",
    "Verif.Ntt.C38_from",
    "Verif.Ntt.C38_round_trip",
    "Verif.Ntt.C38_round_trip_one",
    "Verif.Ntt.C38_round_trip_q",
    "Verif.Ntt.C38_digit",
    "Verif.Ntt.C38_digit_shipped",
    "Verif.Ntt.C38_digit_violated"
   ],
   "note": "Small digits: |d| (2^w - q) < 2^(w-1). Finding C38_digit_violated: with 32-bit tori, digits of a base 2^15 decomposition are no longer lifted exactly."
  },
  {
   "property": "C32",
   "status": "proved",
   "theorems": [
    "Verif.Pks.C32_one",
    "Verif.Pks.C32_packing",
    "Verif.Pks.C32_decrypt",
    "Verif.Pks.C32_generated_key",
    "Verif.Pks.C32_too_many"
   ],
   "note": "Any number of ciphertexts in release builds; more than N panic in debug builds (C32_too_many). C32_generated_key links to generated keys."
  },
  {
   "property": "C33",
   "status": "proved",
   "theorems": [
    "Verif.Pks.C33_one",
    "Verif.Pks.C33_error_bound",
    "Verif.Pks.C33_packing",
    "Verif.Pks.C33_generated_key",
    "Verif.Pks.C33_schedule",
    "Verif.Pks.C33_budget",
    "Verif.Pks.C33_too_many",
    "Verif.Pks.C33_cbs_keys",
    "Verif.Pks.C33_cbs_schedule",
    "Verif.Pks.C33_cbs_count"
   ],
   "note": "The key generation uses only f(1): for a function that is not linear the result is still f(1)*P*phase. C33_cbs_*: the list of keys generated for the circuit bootstrap."
  },
  {
   "property": "C43",
   "status": "proved",
   "theorems": [
    "Verif.Wop.C43_cmux_tree",
    "Verif.Wop.C43_wrong_count"
   ],
   "note": "For every transform meeting Transform.Accurate."
  },
  {
   "property": "C44",
   "status": "partial",
   "theorems": [
    "Verif.Wop.C44_vertical_packing",
    "Verif.Wop.C44_lookup",
    "Verif.Wop.C44_too_few",
    "Verif.Wop.C44_u32_debug",
    "Verif.Wop.C44_u32_release_violated"
   ],
   "note": "Proved for 64-bit words. Missing because false: for 32-bit words the code computes the number of CMUX layers wrongly, panics in debug builds (C44_u32_debug) and selects only in the first polynomial in release builds (C44_u32_release_violated)."
  },
  {
   "property": "C45",
   "status": "proved",
   "theorems": [
    "Verif.Wop.C45_extract_bits",
    "Verif.Wop.C45_delta_zero_panics",
    "Verif.Wop.C45_too_many_bits"
   ],
   "note": "delta = 0 with more than one bit is excluded: it panics in debug builds (C45_delta_zero_panics) and gives wrong bits in release builds (example in Wop/Examples2). Any message, noise within the stated bounds."
  },
  {
   "property": "C46",
   "status": "proved",
   "theorems": [
    "Verif.Wop.C46_circuit_bootstrap",
    "Verif.Wop.C46_wrong_keys"
   ],
   "note": "Composes C31 and C33 with an explicit error bound; keys as generated by the code meet the hypotheses by C31_generated_key and C33_cbs_keys."
  },
  {
   "property": "C51",
   "status": "proved",
   "theorems": [
    "Verif.Wop.C51_pipeline"
   ],
   "note": "64-bit words (see C44 for 32-bit words)."
  },
  {
   "property": "C39",
   "status": "proved",
   "theorems": [
    "Verif.Engine.C39_glwe_round_trip",
    "Verif.Engine.C39_lwe_round_trip",
    "Verif.Engine.C39_decrypts_samples"
   ],
   "note": "Both directions, with the exact error for polynomial sizes 0, 1 and non-divisors; the transformed key decrypts extracted samples."
  },
  {
   "property": "C41",
   "status": "partial",
   "theorems": [
    "Verif.Engine.C41_violated",
    "Verif.Engine.C41_violated_witness",
    "Verif.Engine.C41_loading_partial",
    "Verif.Engine.C41_discarding_loading_partial",
    "Verif.Engine.C41_reversed",
    "Verif.Engine.C41_single_element"
   ],
   "note": "The property fails: is_ordered is inverted, so every range of two or more elements is rejected and reversed ranges are accepted (or panic in debug when the size is computed). The partial theorems state exactly what is accepted. The loading engines are traits without an implementation at this commit; their checks are modelled."
  },
  {
   "property": "C47",
   "status": "proved",
   "theorems": [
    "Verif.Engine.C47_public_key",
    "Verif.Engine.C47_any_key",
    "Verif.Engine.C47_errors"
   ],
   "note": "For every generator, choice, key size and message."
  },
  {
   "property": "C48",
   "status": "partial",
   "theorems": [
    "Verif.Engine.C48_discard_add",
    "Verif.Engine.C48_discard_sub",
    "Verif.Engine.C48_fuse_add",
    "Verif.Engine.C48_fuse_sub",
    "Verif.Engine.C48_add_plaintext",
    "Verif.Engine.C48_mul_cleartext_partial",
    "Verif.Engine.C48_mul_cleartext_violated"
   ],
   "note": "All operations are proved except the cleartext multiplication with an output longer than the input, which is accepted and leaves stale ciphertexts (violated)."
  },
  {
   "property": "C49",
   "status": "proved",
   "theorems": [
    "Verif.Engine.C49_read_after_write",
    "Verif.Engine.C49_history",
    "Verif.Engine.C49_iterator",
    "Verif.Engine.C41_single_element"
   ],
   "note": "Element access of polynomial lists for every history of writes; the load/store engines have no implementation at this commit, their checks are C41_single_element."
  },
  {
   "property": "C40",
   "status": "partial",
   "theorems": [
    "Verif.Engine.C40_cleartextVectorCreation",
    "Verif.Engine.C40_cleartextVectorDiscardingConversion",
    "Verif.Engine.C40_cleartextVectorDiscardingRetrieval",
    "Verif.Engine.C40_cleartextVectorEncoding",
    "Verif.Engine.C40_ggswCiphertextDiscardingConversion",
    "Verif.Engine.C40_ggswCiphertextScalarDiscardingEncryption",
    "Verif.Engine.C40_glweCiphertextDecryption",
    "Verif.Engine.C40_glweCiphertextDiscardingConversion",
    "Verif.Engine.C40_glweCiphertextDiscardingDecryption",
    "Verif.Engine.C40_glweCiphertextDiscardingEncryption",
    "Verif.Engine.C40_glweCiphertextDiscardingTrivialEncryption",
    "Verif.Engine.C40_glweCiphertextEncryption",
    "Verif.Engine.C40_glweCiphertextGgswCiphertextExternalProduct",
    "Verif.Engine.C40_glweCiphertextVectorDecryption",
    "Verif.Engine.C40_glweCiphertextVectorDiscardingConversion",
    "Verif.Engine.C40_glweCiphertextVectorDiscardingDecryption",
    "Verif.Engine.C40_glweCiphertextVectorDiscardingEncryption",
    "Verif.Engine.C40_glweCiphertextVectorZeroEncryption",
    "Verif.Engine.C40_glweCiphertextsGgswCiphertextFusingCmux",
    "Verif.Engine.C40_glweSecretKeyDiscardingConversion",
    "Verif.Engine.C40_glweSecretKeyGeneration",
    "Verif.Engine.C40_glweSeededCiphertextEncryption",
    "Verif.Engine.C40_lweBootstrapKeyDiscardingConversion",
    "Verif.Engine.C40_lweCiphertextCleartextDiscardingMultiplication",
    "Verif.Engine.C40_lweCiphertextCreation",
    "Verif.Engine.C40_lweCiphertextDiscardingAddition",
    "Verif.Engine.C40_lweCiphertextDiscardingBootstrap",
    "Verif.Engine.C40_lweCiphertextDiscardingConversion",
    "Verif.Engine.C40_lweCiphertextDiscardingDecryption",
    "Verif.Engine.C40_lweCiphertextDiscardingEncryption",
    "Verif.Engine.C40_lweCiphertextDiscardingExtraction",
    "Verif.Engine.C40_lweCiphertextDiscardingKeyswitch",
    "Verif.Engine.C40_lweCiphertextDiscardingOpposite",
    "Verif.Engine.C40_lweCiphertextDiscardingPublicKeyEncryption",
    "Verif.Engine.C40_lweCiphertextDiscardingSubtraction",
    "Verif.Engine.C40_lweCiphertextFusingAddition",
    "Verif.Engine.C40_lweCiphertextFusingSubtraction",
    "Verif.Engine.C40_lweCiphertextPlaintextDiscardingAddition",
    "Verif.Engine.C40_lweCiphertextPlaintextDiscardingSubtraction",
    "Verif.Engine.C40_lweCiphertextVectorCleartextVectorDiscardingMultiplication",
    "Verif.Engine.C40_lweCiphertextVectorCreation",
    "Verif.Engine.C40_lweCiphertextVectorDecryption",
    "Verif.Engine.C40_lweCiphertextVectorDiscardingAddition",
    "Verif.Engine.C40_lweCiphertextVectorDiscardingAffineTransformation",
    "Verif.Engine.C40_lweCiphertextVectorDiscardingBootstrap",
    "Verif.Engine.C40_lweCiphertextVectorDiscardingCircuitBootstrapBoolean",
    "Verif.Engine.C40_lweCiphertextVectorDiscardingConversion",
    "Verif.Engine.C40_lweCiphertextVectorDiscardingDecryption",
    "Verif.Engine.C40_lweCiphertextVectorDiscardingEncryption",
    "Verif.Engine.C40_lweCiphertextVectorDiscardingKeyswitch",
    "Verif.Engine.C40_lweCiphertextVectorDiscardingOpposite",
    "Verif.Engine.C40_lweCiphertextVectorDiscardingSubtraction",
    "Verif.Engine.C40_lweCiphertextVectorFusingAddition",
    "Verif.Engine.C40_lweCiphertextVectorFusingSubtraction",
    "Verif.Engine.C40_lweCiphertextVectorGlweCiphertextDiscardingPackingKeyswitch",
    "Verif.Engine.C40_lweCiphertextVectorGlweCiphertextDiscardingPrivateFunctionalPackingKeyswitch",
    "Verif.Engine.C40_lweCiphertextVectorPlaintextVectorDiscardingAddition",
    "Verif.Engine.C40_lweCiphertextVectorZeroEncryption",
    "Verif.Engine.C40_lweKeyswitchKeyDiscardingConversion",
    "Verif.Engine.C40_lwePublicKeyGeneration",
    "Verif.Engine.C40_lweSecretKeyDiscardingConversion",
    "Verif.Engine.C40_lweSecretKeyGeneration",
    "Verif.Engine.C40_plaintextVectorCreation",
    "Verif.Engine.C40_plaintextVectorDecoding",
    "Verif.Engine.C40_plaintextVectorDiscardingConversion",
    "Verif.Engine.C40_plaintextVectorDiscardingRetrieval",
    "Verif.Engine.C40_keyGeneration_partial",
    "Verif.Engine.C40_keyGeneration_violated",
    "Verif.Engine.C40_lwePrivateFunctionalPackingKeyswitchKeyGeneration_partial",
    "Verif.Engine.C40_lweKeyswitchKeyCreation_partial",
    "Verif.Engine.C40_lweBootstrapKeyCreation_partial",
    "Verif.Engine.C40_lweBootstrapKeyCreation_violated",
    "Verif.Engine.C40_glweCiphertextCreation_partial",
    "Verif.Engine.C40_glweCiphertextCreation_violated",
    "Verif.Engine.C40_glweCiphertextVectorCreation_partial",
    "Verif.Engine.C40_glweCiphertextVectorCreation_violated",
    "Verif.Engine.C40_glweCiphertextVectorEncryption",
    "Verif.Engine.C40_glweCiphertextVectorTrivialEncryption_partial",
    "Verif.Engine.C40_glweCiphertextVectorTrivialEncryption_violated",
    "Verif.Engine.C40_lweToGlweSecretKeyTransformation",
    "Verif.Engine.C40_lweCiphertextDiscardingBitExtraction_partial",
    "Verif.Engine.C40_lweCiphertextDiscardingBitExtraction_violated",
    "Verif.Engine.C40_fft",
    "Verif.Engine.C40_discardingExternalProduct_partial",
    "Verif.Engine.C40_discardingExternalProduct_violated",
    "Verif.Engine.C40_verticalPacking_partial",
    "Verif.Engine.C40_verticalPacking_violated",
    "Verif.Engine.C40_verticalPacking_never",
    "Verif.Engine.C40_plaintextVectorDecoding_violated",
    "Verif.Engine.C40_plaintextVectorDecoding_partial",
    "Verif.Engine.C40_checked_call"
   ],
   "note": "One theorem per engine: the generic check accepts iff the documented conditions hold and otherwise returns the error of a violated one; checked functions leave the output unchanged on error. Partial because the code violates it: usize overflow of base_log*level and bits+delta_log, remainder by zero, wrong variants in the discarding external product and the vertical packing, unchecked base log and table size, and decode_plaintext_vector which performs no check (each with a _violated theorem)."
  },
  {
   "property": "C42",
   "status": "partial",
   "theorems": [
    "Verif.Serde.C42_round_trip",
    "Verif.Serde.C42_injective",
    "Verif.Serde.C42_truncated",
    "Verif.Serde.C42_canonical",
    "Verif.Serde.C42_no_panic",
    "Verif.Serde.C42_unsupported_version_partial",
    "Verif.Serde.C42_unsupported_never_accepted",
    "Verif.Serde.C42_version_violated",
    "Verif.Serde.C42_fourier_round_trip",
    "Verif.Serde.C42_fourier_truncated",
    "Verif.Serde.C42_fourier_unsupported_version_partial",
    "Verif.Serde.C42_fourier_malformed_panics"
   ],
   "note": "Round trip, truncation and canonicity for all 50 entities of the default engine (and the Fourier entities relative to the external plan's own buffer format). Partial because an unsupported version whose content is not laid out like the supported one is rejected with a deserialization error instead of UnsupportedVersion (C42_version_violated); malformed Fourier entities can panic (C42_fourier_malformed_panics)."
  },
  {
   "property": "C52",
   "status": "proved",
   "theorems": [
    "Verif.Gsw.C52_encrypt",
    "Verif.Gsw.C52_encrypt_defined",
    "Verif.Gsw.C52_debug_overflow",
    "Verif.Gsw.C52_debug_eq_release",
    "Verif.Gsw.C52_parallel",
    "Verif.Gsw.C52_trivial",
    "Verif.Gsw.C52_external_product",
    "Verif.Gsw.C52_external_product_bound",
    "Verif.Gsw.C52_cmux"
   ],
   "note": "Finding: with overflow checks the encryption of any message not below the decomposition base panics."
  },
  {
   "property": "C53",
   "status": "proved",
   "theorems": [
    "Verif.Aes.C53_aesni",
    "Verif.Aes.C53_aarch64",
    "Verif.Aes.C53_soft",
    "Verif.Aes.C53_backends_agree",
    "Verif.Aes.C53_features",
    "Verif.Aes.C53_default_generator",
    "Verif.Aes.sbox_spec"
   ],
   "note": "Vector instructions modelled after the Intel and ARM manuals on register bytes (little endian targets); the aes crate of the software generator is assumed to implement FIPS 197."
  },
  {
   "property": "C54",
   "status": "partial",
   "theorems": [
    "Verif.Encode.C54_roundtrip_partial",
    "Verif.Encode.C54_noise_partial",
    "Verif.Encode.C54_plaintext_partial",
    "Verif.Encode.C54_violated_beyond_max",
    "Verif.Encode.C54_violated_high_precision"
   ],
   "note": "The code violates the full claim: messages just above max are accepted and decode to min; precisions from 54 bits up lose the margin. Proved for precisions up to 46 bits, bounds of magnitude up to 2^900 and ranges of length at least 2^-900."
  },
  {
   "property": "C55",
   "status": "partial",
   "theorems": [
    "Verif.Encode.C55_from_torus_partial",
    "Verif.Encode.C55_roundtrip",
    "Verif.Encode.C55_violated_below_half",
    "Verif.Encode.C55_violated_negative_half"
   ],
   "note": "The code violates 'closest' in the last half unit below one half and at minus one half (saturating cast); the round trip is proved in full."
  },
  {
   "property": "C56",
   "status": "partial",
   "theorems": [
    "Verif.Encode.C56_create_min_max",
    "Verif.Encode.C56_create_center_radius_partial",
    "Verif.Encode.C56_create_vector",
    "Verif.Encode.C56_create_vector_center_radius",
    "Verif.Encode.C56_violated_vector_small_radius",
    "Verif.Encode.C56_encode",
    "Verif.Encode.C56_encode_vector",
    "Verif.Encode.C56_violated_nan",
    "Verif.Encode.C56_violated_small_radius",
    "Verif.Encode.C56_violated_debug_shift",
    "Verif.Encode.C56_violated_decode_mismatch"
   ],
   "note": "The code violates the claim: NaN bounds, a radius below the resolution of the center and too large precisions or paddings panic; decoding a vector reports no length mismatch."
  },
  {
   "property": "C57",
   "status": "proved",
   "theorems": [
    "Verif.Entity.C57_lwe_list",
    "Verif.Entity.C57_lwe_list_allocate",
    "Verif.Entity.C57_lwe_sublists",
    "Verif.Entity.C57_keyswitch_key",
    "Verif.Entity.C57_keyswitch_key_allocate",
    "Verif.Entity.C57_seeded_keyswitch_key",
    "Verif.Entity.C57_glwe",
    "Verif.Entity.C57_glwe_list",
    "Verif.Entity.C57_glwe_list_allocate",
    "Verif.Entity.C57_glwe_seeded_list",
    "Verif.Entity.C57_glwe_secret_key",
    "Verif.Entity.C57_ggsw",
    "Verif.Entity.C57_ggsw_allocate",
    "Verif.Entity.C57_bootstrap_key",
    "Verif.Entity.C57_bootstrap_key_layout",
    "Verif.Entity.C57_bootstrap_key_allocate",
    "Verif.Entity.C57_ggsw_seeded",
    "Verif.Entity.C57_ggsw_seeded_allocate",
    "Verif.Entity.C57_seeded_bootstrap_key",
    "Verif.Entity.C57_packing_key",
    "Verif.Entity.C57_packing_key_allocate",
    "Verif.Entity.C57_packing_key_list",
    "Verif.Entity.C57_sublists_short"
   ],
   "note": "For containers whose length is a multiple of the element size, in both build profiles. C57_sublists_short records what happens to other lengths."
  },
  {
   "property": "C58",
   "status": "partial",
   "theorems": [
    "Verif.Entity.C58_lwe_ciphertext",
    "Verif.Entity.C58_plaintext_vector",
    "Verif.Entity.C58_glwe_ciphertext",
    "Verif.Entity.C58_glwe_ciphertext_vector",
    "Verif.Entity.C58_keyswitch_key",
    "Verif.Entity.C58_bootstrap_key",
    "Verif.Entity.C58_lwe_ciphertext_vector_partial",
    "Verif.Entity.C58_violated_lwe_vector",
    "Verif.Entity.C58_violated_null_polynomial_size"
   ],
   "note": "The code violates the full claim: the creation of vectors of LWE ciphertexts does not check the length against the LWE size (panic in debug builds, truncated last ciphertext in release builds), and a null polynomial size panics instead of being reported."
  },
  {
   "property": "C59",
   "status": "proved",
   "theorems": [
    "Verif.Session.C59_masks_step",
    "Verif.Session.C59_masks",
    "Verif.Session.C59_seeded_step",
    "Verif.Session.C59_seeds",
    "Verif.Session.C59_lwe_key",
    "Verif.Session.C59_glwe_key"
   ],
   "note": "For arguments made of whole ciphertexts and polynomials and schedules that run each job once."
  },
  {
   "property": "C60",
   "status": "proved",
   "theorems": [
    "Verif.Session.C60_advance",
    "Verif.Session.C60_step",
    "Verif.Session.C60_error",
    "Verif.Session.C60_run_advance",
    "Verif.Session.C60_disjoint",
    "Verif.Session.C60_run"
   ],
   "note": "For all calls, without any hypothesis on the arguments."
  },
  {
   "property": "C61",
   "status": "partial",
   "theorems": [
    "Verif.Session.C61_default",
    "Verif.Session.C61_parallel",
    "Verif.Session.C61_generator",
    "Verif.Session.C61_words_partial",
    "Verif.Session.C61_shared_stream",
    "Verif.Session.C61_key_leak"
   ],
   "note": "Proved for one engine. The code violates the second sentence: with the same root seed the mask stream of a parallel engine is the secret key stream of a default engine."
  },
  {
   "property": "C62",
   "status": "proved",
   "theorems": [
    "Verif.Circuit.C62_circuit",
    "Verif.Circuit.C62_decode",
    "Verif.Circuit.C62_keys",
    "Verif.Circuit.C62_inputs",
    "Verif.Circuit.C62_end_to_end",
    "Verif.Circuit.C62_ntt_transform"
   ],
   "note": "For binary keys and worst case noise bounds. The rounding error of the FFT is a hypothesis; for the NTT with the shipped 64-bit tables it is proved (C62_ntt_transform)."
  },
  {
   "property": "C63",
   "status": "partial",
   "theorems": [
    "Verif.Fft.C63_products_partial",
    "Verif.Fft.C63_bootstrap_partial",
    "Verif.Fft.C63_avx512_subtracts",
    "Verif.Fft.C63_avx512_violated",
    "Verif.Fft.fft_accurate",
    "Verif.Fft.idealPlan_accurate",
    "Verif.Fft.idealSinCos_accurate"
   ],
   "note": "Proved in IEEE arithmetic for every processor except 64 bits with AVX-512 (nightly feature), where the code subtracts the products: C63_avx512_violated. The accuracy of the complex transform of the crate concrete_fft and of the sine is a hypothesis, shown satisfiable. Sizes that are multiples of 16."
  },
  {
   "property": "C64",
   "status": "partial",
   "theorems": [
    "Verif.Fft.C64_int_to_float",
    "Verif.Fft.C64_float_to_int",
    "Verif.Fft.C64_to_torus_partial",
    "Verif.Fft.C64_forward_integer",
    "Verif.Fft.C64_float_to_int_avx512_violated",
    "Verif.Fft.C64_small_sizes_violated"
   ],
   "note": "The code violates the full claim: the AVX-512 conversion to 64-bit integers returns the opposite, and the vectorised loops ignore what remains after the last full block. Proved for the other conversions and for multiples of 8 complex values."
  },
  {
   "property": "C65",
   "status": "proved",
   "theorems": [
    "Verif.Fft.Cache.C65_same_plan",
    "Verif.Fft.Cache.C65_once",
    "Verif.Fft.Cache.C65_progress",
    "Verif.Fft.Cache.C65_bounded",
    "Verif.Fft.Cache.C65_complete",
    "Verif.Fft.Cache.C65_failures"
   ],
   "note": "Interleaving model of the lock, the map and the once-cells; the lock and the cell follow their documented semantics (trusted)."
  },
  {
   "property": "C66",
   "status": "partial",
   "theorems": [
    "Verif.Scratch.C66_conversions",
    "Verif.Scratch.C66_externalProduct",
    "Verif.Scratch.C66_cmux",
    "Verif.Scratch.C66_bootstrap",
    "Verif.Scratch.C66_extractBits",
    "Verif.Scratch.C66_circuitBootstrap",
    "Verif.Scratch.C66_verticalPacking_partial",
    "Verif.Scratch.C66_verticalPacking_violated",
    "Verif.Scratch.C66_callerStack"
   ],
   "note": "Proved for every operation except the vertical packing with keys of different GLWE dimensions or polynomial sizes, which the checks accept and the code violates (C66_verticalPacking_violated). Semantics of dyn_stack in the trusted base."
  },
  {
   "property": "C67",
   "status": "partial",
   "theorems": [
    "Verif.Wop.C67_partial",
    "Verif.Wop.C67_violated",
    "Verif.Wop.C67_never"
   ],
   "note": "Holds for one level; the code violates it for two levels or more."
  },
  {
   "property": "C68",
   "status": "partial",
   "theorems": [
    "Verif.Capi.C68_add",
    "Verif.Capi.C68_mul_cleartext",
    "Verif.Capi.C68_negate",
    "Verif.Capi.C68_add_plaintext_partial",
    "Verif.Capi.C68_add_plaintext_violated",
    "Verif.Capi.C68_keyswitch",
    "Verif.Capi.C68_bootstrap",
    "Verif.Capi.C68_extract_bit_violated",
    "Verif.Capi.C68_extract_bit_never",
    "Verif.Capi.C68_vertical_packing_keys_violated",
    "Verif.Capi.C68_vertical_packing_unwritten",
    "Verif.Capi.C68_vertical_packing_never",
    "Verif.Capi.C68_stack"
   ],
   "note": "Proved for addition, product, negation, keyswitch, conversion and bootstrap. The code violates the claim for the addition of a plaintext, the extraction of bits and the vertical packing, for all valid arguments."
  },
  {
   "property": "C69",
   "status": "partial",
   "theorems": [
    "Verif.Cuda.C69_roundtrip_partial",
    "Verif.Cuda.C69_roundtrip_iff",
    "Verif.Cuda.C69_few_elements_violated",
    "Verif.Cuda.C69_large_remainder_violated",
    "Verif.Cuda.C69_small_remainder_violated",
    "Verif.Cuda.C69_empty_violated",
    "Verif.Cuda.C69_large_vector_violated",
    "Verif.Cuda.C69_broadcast",
    "Verif.Cuda.C69_memory_check_partial",
    "Verif.Cuda.C69_memory_check_violated"
   ],
   "note": "Proved exactly when the number of GPUs divides the length (and below 2^32 words); the code violates the claim in all other cases, shown for all lengths."
  },
  {
   "property": "C70",
   "status": "partial",
   "theorems": [
    "Verif.Cuda.C70_opposite_partial",
    "Verif.Cuda.C70_addition_partial",
    "Verif.Cuda.C70_plaintext_addition_partial",
    "Verif.Cuda.C70_cleartext_multiplication_partial",
    "Verif.Cuda.C70_few_ciphertexts_violated"
   ],
   "note": "Proved for at least as many ciphertexts as GPUs and up to 2^31-512 words; with fewer ciphertexts than GPUs the code terminates the process."
  },
  {
   "property": "C71",
   "status": "partial",
   "theorems": [
    "Verif.Cuda.C71_keyswitch_outcomes",
    "Verif.Cuda.C71_keyswitch_partial",
    "Verif.Cuda.C71_body_lost_violated",
    "Verif.Cuda.C71_progress",
    "Verif.Cuda.C71_refused_violated"
   ],
   "note": "Equality with the CPU is proved for output dimensions that are multiples of 128, and all outcomes are characterised for the others, where a data race can lose the body (witness schedule for all inputs)."
  },
  {
   "property": "C72",
   "status": "partial",
   "theorems": [
    "Verif.Cuda.C72_launch",
    "Verif.Cuda.C72_packing_partial",
    "Verif.Cuda.C72_many_violated",
    "Verif.Cuda.C72_unchanged_violated",
    "Verif.Cuda.C72_remainder_violated"
   ],
   "note": "Equality with the CPU is proved for one ciphertext on one GPU with 256 dividing (k+1)N, and for the launch with room for all results; the other cases are refuted for all inputs."
  },
  {
   "property": "C73",
   "status": "partial",
   "theorems": [
    "Verif.Ffi.C73_ledger_partial",
    "Verif.Ffi.C73_destroy_partial",
    "Verif.Ffi.C73_destroy_buffer_partial",
    "Verif.Ffi.C73_transform_violated",
    "Verif.Ffi.C73_capacity_needed"
   ],
   "note": "Proved for all histories in which the engine does not fail inside a function that consumes a key and no BufferView is null; the failing transformation is refuted. Exact capacity of serialized vectors is trusted."
  },
  {
   "property": "C74",
   "status": "partial",
   "theorems": [
    "Verif.Ffi.C74_refused_partial",
    "Verif.Ffi.C74_success",
    "Verif.Ffi.C74_result_ok",
    "Verif.Ffi.C74_result_failed",
    "Verif.Ffi.C74_unchecked",
    "Verif.Ffi.C74_view_violated"
   ],
   "note": "All pointers but those of BufferView are checked; the null BufferView is refuted."
  },
  {
   "property": "C75",
   "status": "partial",
   "theorems": [
    "Verif.Cuda.C75_amortized",
    "Verif.Cuda.C75_low_latency_partial",
    "Verif.Cuda.C75_low_latency_violated"
   ],
   "note": "Amortized bootstrap: full. Low latency bootstrap: all pairs of arrays except one, which overlaps whenever only part of the arrays fits in shared memory (refuted)."
  },
  {
   "property": "C76",
   "status": "partial",
   "theorems": [
    "Verif.Cuda.Low.C76_low_latency_partial",
    "Verif.Cuda.Low.C76_one_level",
    "Verif.Cuda.Low.C76_no_deadlock",
    "Verif.Cuda.Low.C76_external",
    "Verif.Cuda.Low.C76_levels_agree",
    "Verif.Cuda.Low.C76_race_violated",
    "Verif.Cuda.Low.C76_result_violated"
   ],
   "note": "All schedules for one level; with more levels, the schedules without the race, which is shown reachable with a different result."
  },
  {
   "property": "C77",
   "status": "partial",
   "theorems": [
    "Verif.Cuda.C77_single",
    "Verif.Cuda.C77_amortized_partial",
    "Verif.Cuda.C77_low_latency_partial",
    "Verif.Cuda.C77_amortized_tables",
    "Verif.Cuda.C77_low_latency_tables",
    "Verif.Cuda.C77_tables_violated",
    "Verif.Cuda.C77_overrun_violated",
    "Verif.Cuda.C77_low_latency_filled_violated"
   ],
   "note": "Right for one ciphertext; for vectors the table indexes are never written, so the claim holds only if the memory happens to hold them (refuted otherwise)."
  },
  {
   "property": "C78",
   "status": "partial",
   "theorems": [
    "Verif.Cuda.C78_switch_32",
    "Verif.Cuda.C78_switch_64_partial",
    "Verif.Cuda.C78_switch_64_violated"
   ],
   "note": "Proved for 32-bit words; for 64-bit words proved up to an error of 2N/2^54 and refuted for some words at each polynomial size."
  },
  {
   "property": "C79",
   "status": "partial",
   "theorems": [
    "Verif.Cuda.Thr.C79_divide",
    "Verif.Cuda.Thr.C79_zero",
    "Verif.Cuda.Thr.C79_rotate",
    "Verif.Cuda.Thr.C79_prepare_partial",
    "Verif.Cuda.Thr.C79_prepare_violated",
    "Verif.Cuda.Thr.C79_extract"
   ],
   "note": "Proved for every interleaving; for the digits when the base has at most 31 bits, refuted for a base of 33 bits."
  },
  {
   "property": "C80",
   "status": "partial",
   "theorems": [
    "Verif.Cuda.Am.C80_step_partial",
    "Verif.Cuda.Am.C80_same_as_cpu",
    "Verif.Cuda.Am.C80_bootstrap_32",
    "Verif.Cuda.Am.C80_lookup_32",
    "Verif.Cuda.Am.C80_lookup_64_partial"
   ],
   "note": "Proved for 32-bit words; for 64-bit words with the larger distance of C78 and bases of at most 31 bits (C79). The transform of the GPU is a parameter with an error bound."
  },
  {
   "property": "C81",
   "status": "partial",
   "theorems": [
    "Verif.Cuda.Am.C81_lookup_32_partial",
    "Verif.Cuda.Am.C81_lookup_64_partial"
   ],
   "note": "Proved for one level, for one mask element, and for every schedule without the race of C76; the other schedules are refuted by C76_result_violated. The transform of the GPU is a parameter with an error bound."
  },
  {
   "property": "C82",
   "status": "proved",
   "theorems": [
    "Verif.Cuda.Nsm.C82_direct_threads",
    "Verif.Cuda.Nsm.C82_inverse_threads",
    "Verif.Cuda.Nsm.C82_direct_values",
    "Verif.Cuda.Nsm.C82_roundtrip",
    "Verif.Cuda.Nsm.C82_products",
    "Verif.Cuda.Nsm.C82_table"
   ],
   "note": "The errors of rounding are the subject of C83."
  },
  {
   "property": "C83",
   "status": "partial",
   "theorems": [
    "Verif.Cuda.Nsm.C83_products",
    "Verif.Cuda.Nsm.C83_amortized_32",
    "Verif.Cuda.Nsm.C83_amortized_64_partial",
    "Verif.Cuda.Nsm.C83_low_latency_32_partial",
    "Verif.Cuda.Nsm.C83_low_latency_64_partial",
    "Verif.Cuda.Nsm.C83_modulus_violated"
   ],
   "note": "The bound on the products is proved in full. The corollaries on bootstraps have the restrictions of C76, C78 and C79. On 32-bit words the computation is modulo 2^32 - 1, which adds an error that does not come from rounding."
  },
  {
   "property": "C84",
   "status": "partial",
   "theorems": [
    "Verif.Fft.C84_coefficients",
    "Verif.Fft.C84_bootstrap_partial",
    "Verif.Fft.C84_external_product_partial"
   ],
   "note": "C84_coefficients is proved in full. The corollaries on the use of the key have the restrictions of C63 on the second machine: no 64-bit AVX-512 version, polynomials of at least 16 coefficients."
  },
  {
   "property": "C85",
   "status": "partial",
   "theorems": [
    "Verif.Cuda.Vp.C85_cmux_partial",
    "Verif.Cuda.Vp.C85_vertical_packing_partial",
    "Verif.Cuda.Vp.C85_lookup_partial",
    "Verif.Cuda.Vp.C85_few_bits_violated",
    "Verif.Cuda.Vp.C85_order_violated",
    "Verif.Cuda.Vp.C85_rounding_violated"
   ],
   "note": "Violated: with two layers or more the order of the bits of the tree is reversed, the CMUX truncates, and fewer than log2 N bits give undefined shifts. C85_vertical_packing_partial states what is computed for any number of layers, C85_lookup_partial the English property for at most one layer, both with a rounding term twice that of the CPU."
  },
  {
   "property": "C86",
   "status": "partial",
   "theorems": [
    "Verif.Cuda.Cbs.C86_circuit_bootstrap_64_partial",
    "Verif.Cuda.Cbs.C86_circuit_bootstrap_32_partial",
    "Verif.Cuda.Cbs.C86_pipeline_64_partial",
    "Verif.Cuda.Cbs.C86_full_precision_violated",
    "Verif.Cuda.Cbs.C86_many_inputs_violated",
    "Verif.Cuda.Cbs.C86_multi_gpu_violated"
   ],
   "note": "Violated with several GPUs, a full-precision decomposition or more than 65535 rows. Proved for one GPU, 256 dividing (k+1)N, base logs of at most 31 for 64-bit words, and the indexes of the tables that the scratch function is meant to write (their place is the subject of C87)."
  },
  {
   "property": "C87",
   "status": "partial",
   "theorems": [
    "Verif.Cuda.Wm.C87_arrays_partial",
    "Verif.Cuda.Wm.C87_tree_blocks",
    "Verif.Cuda.Wm.C87_rotation_blocks",
    "Verif.Cuda.Wm.C87_indexes_partial",
    "Verif.Cuda.Wm.C87_extract_partial",
    "Verif.Cuda.Wm.C87_wop_partial",
    "Verif.Cuda.Wm.C87_indexes_violated",
    "Verif.Cuda.Wm.C87_no_layer_violated",
    "Verif.Cuda.Wm.C87_alignment_32_violated",
    "Verif.Cuda.Wm.C87_fft_memory_violated",
    "Verif.Cuda.Wm.C87_extract_violated",
    "Verif.Cuda.Wm.C87_wop_violated"
   ],
   "note": "Violated: misplaced indexes, misaligned arrays of 32-bit words, a missing address operator, several samples in the bit extraction, masks that are not set to zero. Proved outside these cases, for fewer than 31 layers and products below 2^32."
  },
  {
   "property": "C88",
   "status": "partial",
   "theorems": [
    "Verif.Cuda.Be.C88_extract_bits_64_partial",
    "Verif.Cuda.Be.C88_extract_bits_32_partial",
    "Verif.Cuda.Be.C88_multi_gpu_violated",
    "Verif.Cuda.Be.C88_no_padding_violated",
    "Verif.Cuda.Be.C88_body_lost_violated"
   ],
   "note": "Proved for one GPU, small keys of a length that is a multiple of 128 and schedules of the bootstrap without the race of C76; violated for several GPUs, position 0 and the other key lengths."
  },
  {
   "property": "C89",
   "status": "partial",
   "theorems": [
    "Verif.Wop.C89_cpu",
    "Verif.Cuda.Wp.C89_cuda_64_partial",
    "Verif.Cuda.Wp.C89_cuda_32_partial",
    "Verif.Cuda.Wp.C89_order_violated"
   ],
   "note": "Proved on the CPU for all numbers of bits; on CUDA for at most one bit above log2 N, one input and what C86 and C88 cover; violated on CUDA beyond."
  },
  {
   "property": "C90",
   "status": "partial",
   "theorems": [
    "Verif.Cuda.Bg.C90_gates_partial",
    "Verif.Cuda.Bg.C90_not",
    "Verif.Cuda.Bg.C90_circuit_partial",
    "Verif.Cuda.Bg.C90_leak_violated",
    "Verif.Cuda.Bg.C90_body_lost_violated",
    "Verif.Cuda.Bg.C90_empty_violated"
   ],
   "note": "Proved for LWE dimensions that are multiples of 128 and at least one ciphertext; XOR and XNOR leak one buffer; violated for other dimensions (lost body) and for no ciphertext (exit)."
  },
  {
   "property": "C91",
   "status": "partial",
   "theorems": [
    "Verif.Random.Gauss.C91_noise_bounded",
    "Verif.Random.Gauss.C91_no_noise",
    "Verif.Random.Gauss.C91_lwe",
    "Verif.Random.Gauss.C91_glwe",
    "Verif.Random.Gauss.C91_keyswitch",
    "Verif.Random.Gauss.C91_bound_reached",
    "Verif.Random.Gauss.C91_invalid_violated"
   ],
   "note": "Proved for valid noise parameters; parameters that are no variance (negative, NaN) are accepted and give no noise."
  },
  {
   "property": "C92",
   "status": "partial",
   "theorems": [
    "Verif.Circuit.C92_session_partial"
   ],
   "note": "As C63: not for the 64-bit AVX-512 version (which subtracts) nor for polynomials of size less than 16. Worst case bounds: parameters chosen for a small failure probability need not meet them."
  },
  {
   "property": "C93",
   "status": "partial",
   "theorems": [
    "Verif.Fft.Parallel.C93_checks",
    "Verif.Fft.Parallel.C93_unchecked",
    "Verif.Fft.Parallel.C93_parallel",
    "Verif.Fft.Parallel.C93_completes",
    "Verif.Fft.Parallel.C93_unchecked_mismatch",
    "Verif.Fft.Parallel.C93_lookup_partial"
   ],
   "note": "The phases as C63: not for the 64-bit AVX-512 version. Sequentially consistent memory is assumed; it is not needed, since no two threads access the same word (outputs are disjoint, the rest is read only)."
  },
  {
   "property": "C94",
   "status": "partial",
   "theorems": [
    "Verif.Random.Disp.C94_powers",
    "Verif.Random.Disp.C94_std_round_trip",
    "Verif.Random.Disp.C94_variance_round_trip_violated",
    "Verif.Random.Disp.C94_variance_round_trip_partial",
    "Verif.Random.Disp.C94_log",
    "Verif.Random.Disp.C94_from_modular",
    "Verif.Random.Disp.C94_modular_round_trip",
    "Verif.Random.Disp.C94_range_violated"
   ],
   "note": "powf and log2 of the platform are parameters with stated accuracy. The round trip of a variance is exact only up to 2^-51 (violated with 2). Getters modulo 2^k of numbers that are not powers of two are not bounded."
  },
  {
   "property": "C95",
   "status": "partial",
   "theorems": [
    "Verif.Session.C95_lwe",
    "Verif.Session.C95_glwe",
    "Verif.Session.C95_lwe_seeded",
    "Verif.Session.C95_glwe_seeded",
    "Verif.Session.C95_trivial_lwe",
    "Verif.Session.C95_trivial_glwe",
    "Verif.Session.C95_trivial_glwe_one",
    "Verif.Session.C95_lwe_mismatch",
    "Verif.Session.C95_glwe_mismatch",
    "Verif.Session.C95_unchecked_dimension_violated"
   ],
   "note": "The encryption calls have the release behaviour (no overflow checks) in both builds. The single LWE decryption does not check the dimension of the key (violated)."
  },
  {
   "property": "C96",
   "status": "proved",
   "theorems": [
    "Verif.Npe.C96_binary",
    "Verif.Npe.C96_ternary",
    "Verif.Npe.C96_gaussian",
    "Verif.Npe.C96_zero"
   ],
   "note": "Over exact rationals (no floating point rounding). Sizes are 1 or even; for size 1 the constants of odd and even coefficients are averaged, as the code comments say. A Gaussian coefficient is any finite distribution with its first four moments."
  },
  {
   "property": "C98",
   "status": "proved",
   "theorems": [
    "Verif.Npe.C98_keyswitch"
   ],
   "note": "Over exact rationals. The estimate is an upper bound, strict for two levels or more."
  },
  {
   "property": "C97",
   "status": "partial",
   "theorems": [
    "Verif.Npe.C97_addition",
    "Verif.Npe.C97_several_additions",
    "Verif.Npe.C97_integer_multiplication",
    "Verif.Npe.C97_weighted_sum",
    "Verif.Npe.C97_polynomial_multiplication",
    "Verif.Npe.C97_weight_overflow_violated",
    "Verif.Npe.C97_switch_key",
    "Verif.Npe.C97_switch_estimate",
    "Verif.Npe.C97_pbs",
    "Verif.Npe.C97_cmux",
    "Verif.Npe.C97_bit_extraction",
    "Verif.Npe.C97_wop_pbs"
   ],
   "note": "Over exact rationals. The estimate of the external product is related to the operation in C99; those of the bootstrap, CMux and bit extraction are related to each other, not to the variance of the operation. Squares of weights overflow (violated). Keys with fewer than two ones are excluded for the modulus switching."
  },
  {
   "property": "C99",
   "status": "proved",
   "theorems": [
    "Verif.Npe.C99_external_product",
    "Verif.Npe.C99_constant_coefficient_violated"
   ],
   "note": "Over exact rationals and for transforms without error (NTT, exact). The exact variance is proved; the claim that the estimate is an upper bound is proved for centred keys and for the last coefficient, and refuted for the constant coefficient with binary keys."
  },
  {
   "property": "C100",
   "status": "proved",
   "theorems": [
    "Verif.Npe.C100_packing",
    "Verif.Npe.C100_private"
   ],
   "note": "Over exact rationals; one ciphertext is switched, not a list. The private functional keyswitch has a constant polynomial."
  },
  {
   "property": "C101",
   "status": "proved",
   "theorems": [
    "Verif.Npe.C101_cmux"
   ],
   "note": "Over exact rationals and for transforms without error (NTT, exact)."
  },
  {
   "property": "C102",
   "status": "partial",
   "theorems": [
    "Verif.Npe.C102_noise_bits",
    "Verif.Npe.C102_noise_tail",
    "Verif.Npe.C102_msb",
    "Verif.Npe.C102_multiplication",
    "Verif.Npe.C102_relinearization_violated",
    "Verif.Npe.C102_relinearization_key",
    "Verif.Npe.C102_tensor_rounding",
    "Verif.Npe.C102_tensor_noise",
    "Verif.Npe.C102_tensor_sign_violated"
   ],
   "note": "Over exact numbers. Partial: the relinearization clause is violated, and the tensor product estimate takes the wrong sign in the unreduced phase. The tensor product and the relinearization are not operations of the library: their estimates are compared with the variances of the terms of the phase, not with code."
  },
  {
   "property": "C103",
   "status": "partial",
   "theorems": [
    "Verif.Random.C103_draw",
    "Verif.Random.C103_tensor",
    "Verif.Random.C103_probability",
    "Verif.Random.C103_extremes",
    "Verif.Random.C103_probability_one_violated"
   ],
   "note": "Partial: the clause for p = 1 is violated; everything else is proved."
  },
  {
   "property": "C104",
   "status": "proved",
   "theorems": [
    "Verif.Tensor.C104_fill_with_two",
    "Verif.Tensor.C104_update_with_two",
    "Verif.Tensor.C104_fill_with_one",
    "Verif.Tensor.C104_update_with_one",
    "Verif.Tensor.C104_update_two_with_one",
    "Verif.Tensor.C104_fill_two_with_one",
    "Verif.Tensor.C104_copy",
    "Verif.Tensor.C104_op",
    "Verif.Tensor.C104_fill_with_op",
    "Verif.Tensor.C104_update_with_op",
    "Verif.Tensor.C104_update_with_scalar",
    "Verif.Tensor.C104_element_mul",
    "Verif.Tensor.C104_fold",
    "Verif.Tensor.C104_rotations"
   ],
   "note": "Element operations of the caller are arbitrary functions that may panic."
  },
  {
   "property": "C105",
   "status": "partial",
   "theorems": [
    "Verif.Entity.C105_extraction",
    "Verif.Entity.C105_keyswitch",
    "Verif.Entity.C105_packing",
    "Verif.Entity.C105_private_packing",
    "Verif.Entity.C105_convert_bootstrap_key",
    "Verif.Entity.C105_convert_keyswitch_key",
    "Verif.Entity.C105_trivial_ggsw",
    "Verif.Entity.C105_trivial_ggsw_violated"
   ],
   "note": "Proved for the supported parameters; the trivial GGSW call does not check its parameters: C105_trivial_ggsw_violated."
  },
  {
   "property": "C106",
   "status": "proved",
   "theorems": [
    "Verif.Session.C106_keyswitch_key",
    "Verif.Session.C106_seeded_keyswitch_key",
    "Verif.Session.C106_packing_key",
    "Verif.Session.C106_private_packing_key",
    "Verif.Session.C106_bootstrap_key",
    "Verif.Session.C106_seeded_bootstrap_key",
    "Verif.Session.C106_circuit_keys"
   ],
   "note": "Binary keys and b l < w are assumed; key generation also accepts b l = w, for which C08 already records that the decomposition is outside its contract."
  },
  {
   "property": "C107",
   "status": "partial",
   "theorems": [
    "Verif.Serde.C107_accepted_iff",
    "Verif.Serde.C107_width_partial",
    "Verif.Serde.C107_secret_key_violated",
    "Verif.Serde.C107_width_violated",
    "Verif.Serde.C107_dimensions_violated"
   ],
   "note": "The full statement is false of the code: the bytes of a secret key are accepted as a ciphertext or a plaintext vector, 64-bit entities are accepted as 32-bit ones, and the dimensions read are not checked against the tensor. The exact condition for acceptance is proved."
  },
  {
   "property": "C108",
   "status": "proved",
   "theorems": [
    "Verif.Pbs.C108_convert_ggsw",
    "Verif.Pbs.C108_discard_convert_ggsw",
    "Verif.Pbs.C108_convert_bootstrap_key",
    "Verif.Pbs.C108_external_product",
    "Verif.Pbs.C108_cmux",
    "Verif.Pbs.C108_bootstrap",
    "Verif.Pbs.C108_history"
   ],
   "note": "The error of the transform is a hypothesis (see C90 and C91 for the FFT); the modulus switch is taken in its range (log2 N + 2 < w)."
  },
  {
   "property": "C109",
   "status": "partial",
   "theorems": [
    "Verif.Wop.C109_extract_bits_partial",
    "Verif.Wop.C109_extract_bits_violated",
    "Verif.Wop.C109_packing_errors",
    "Verif.Wop.C109_packing_partial",
    "Verif.Wop.C109_packing_violated",
    "Verif.Wop.C109_no_output_violated",
    "Verif.Wop.C109_u32_violated",
    "Verif.Wop.C109_history"
   ],
   "note": "The full statement is false of the code: see the violated theorems. The extraction is proved for delta > 0 (or one bit), the packing for 64-bit words, equal polynomial sizes and at least log2 N inputs."
  },
  {
   "property": "C110",
   "status": "proved",
   "theorems": [
    "Verif.Random.C110_words",
    "Verif.Random.C110_bits",
    "Verif.Random.C110_lsb",
    "Verif.Random.C110_msb",
    "Verif.Random.C110_ternary",
    "Verif.Random.C110_secret_key",
    "Verif.Random.C110_mask",
    "Verif.Random.C110_noise_signs",
    "Verif.Random.C110_noise_mean"
   ],
   "note": "Counts of byte strings. The bytes themselves are those of AES in counter mode: that they look uniform is an assumption, not a theorem. The noise theorems use the accuracy of the logarithm assumed in C91."
  },
  {
   "property": "C111",
   "status": "proved",
   "theorems": [
    "Verif.Encode.C111_data",
    "Verif.Encode.C111_data_unchecked",
    "Verif.Encode.C111_lwe",
    "Verif.Encode.C111_glwe",
    "Verif.Encode.C111_real_encoder",
    "Verif.Encode.C111_lists"
   ],
   "note": "The ranges have at most 46 bits of precision, the messages are within [min, max] (C54 has the violations beyond). The accuracy of the logarithm is assumed as in C91. RealEncoder is modelled for f64."
  },
  {
   "property": "C112",
   "status": "proved",
   "theorems": [
    "Verif.Random.C112_refused",
    "Verif.Random.C112_noise",
    "Verif.Random.C112_lwe",
    "Verif.Random.C112_polynomial",
    "Verif.Random.C112_lwe_list",
    "Verif.Random.C112_bootstrap_key",
    "Verif.Random.C112_seeded_bootstrap_key",
    "Verif.Random.C112_ggsw",
    "Verif.Random.C112_seeded_ggsw",
    "Verif.Random.C112_private_key",
    "Verif.Random.C112_cbs_keys"
   ],
   "note": "Counts strings of bytes; that the bytes of the generators are uniform is not modelled. The bounds come from an inscribed staircase (at most a quarter of the pairs refused; the exact fraction is about 0.2146)."
  },
  {
   "property": "C113",
   "status": "partial",
   "theorems": [
    "Verif.Lwe.Kinds.C113_values",
    "Verif.Lwe.Kinds.C113_release",
    "Verif.Lwe.Kinds.C113_debug_partial",
    "Verif.Lwe.Kinds.C113_debug_masks",
    "Verif.Lwe.Kinds.C113_debug_binary",
    "Verif.Lwe.Kinds.C113_debug_ternary_violated",
    "Verif.Lwe.Kinds.C113_glwe"
   ],
   "note": "Violated in debug builds: the products of LWE masks and keys are checked there, so that encryption and decryption under keys that are not binary panic for almost all masks; the exact number of usable masks is proved. `ln` and `powf` are assumed accurate to the stated relative errors."
  },
  {
   "property": "C114",
   "status": "proved",
   "theorems": [
    "Verif.Ntt.C114_values",
    "Verif.Ntt.C114_panics",
    "Verif.Ntt.C114_counts",
    "Verif.Ntt.C114_decrypt",
    "Verif.Ntt.C114_second",
    "Verif.Ntt.C114_shipped"
   ],
   "note": ""
  },
  {
   "property": "C115",
   "status": "proved",
   "theorems": [
    "Verif.Lwe.C115_release",
    "Verif.Lwe.C115_debug",
    "Verif.Lwe.C115_debug_dimension",
    "Verif.Lwe.C115_pipeline"
   ],
   "note": ""
  },
  {
   "property": "C116",
   "status": "partial",
   "theorems": [
    "Verif.Numeric.C116_panics",
    "Verif.Numeric.C116_blocks",
    "Verif.Numeric.C116_documented_partial",
    "Verif.Numeric.C116_blocks_violated",
    "Verif.Numeric.C116_injective"
   ],
   "note": "The digits and the separators are proved for all lengths; the length of the blocks only when it divides the precision. It is false otherwise: the last block takes the remainder too (C116_blocks_violated)."
  },
  {
   "property": "C117",
   "status": "partial",
   "theorems": [
    "Verif.Csprng.C117_stream",
    "Verif.Csprng.C117_draws_partial",
    "Verif.Csprng.C117_repeats_violated"
   ],
   "note": "Proved up to the end of the table (2^132 - 2 bytes), in release builds. After 2^128 turns the program writes its last 16 bytes again and again (C117_repeats_violated). With only the unix seeder the program names the seeder RdseedSeeder (main.rs:26); features are not modelled."
  },
  {
   "property": "C118",
   "status": "proved",
   "theorems": [
    "Verif.Fft.C118_checks",
    "Verif.Fft.C118_round_trip",
    "Verif.Fft.C118_encrypts"
   ],
   "note": "Under the accuracy of concrete_fft (PlanAccurate) and of sin_cos (SinCosAccurate), as in C63; no condition on the processor, since this direction uses the scalar conversion."
  },
  {
   "property": "C119",
   "status": "proved",
   "theorems": [
    "Verif.Session.C119_expand",
    "Verif.Session.C119_parallel",
    "Verif.Session.C119_same_seed",
    "Verif.Session.C119_glwe"
   ],
   "note": "A generator is the table of the bytes of its seed, as in C61; reuse of one compression seed leaks the differences of the phases, which C119_same_seed states."
  },
  {
   "property": "C120",
   "status": "partial",
   "theorems": [
    "Verif.Lwe.C120_sums_partial",
    "Verif.Lwe.C120_sums_panics",
    "Verif.Lwe.C120_decrypt_list",
    "Verif.Lwe.C120_violated_content",
    "Verif.Lwe.C120_violated_count"
   ],
   "note": "The code adds the sums to the previous content of the output and accepts weights and biases for some outputs only, so the full statement is false (two violations proved); the partial theorem gives the exact effect for every content and count, which is the documented one on an output of zeros with all weights and biases."
  }
 ]
}