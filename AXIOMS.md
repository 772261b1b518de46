# Axioms of the theorems of MANIFEST.json

Generated by tools/axioms.py from `#print axioms`.

## none (4)

* Verif.Random.C50_violated
* Verif.Engine.C41_violated_witness
* Verif.Serde.C42_version_violated
* Verif.Cuda.Low.C76_levels_agree

## propext (26)

* Verif.Csprng.C01_debug_panics_near_table_end
* Verif.Csprng.C03_violated_by_overflowing_fork
* Verif.Csprng.C05_violated_by_overflow
* Verif.Csprng.C05_violated_by_table_wrap
* Verif.Random.C20_zero_lsb_release_wrong
* Verif.Ntt.C37_reduce
* Verif.Ntt.C37_room_needed
* Verif.Ntt.C38_digit_violated
* Verif.Wop.C45_too_many_bits
* Verif.Engine.C41_violated
* Verif.Engine.C41_single_element
* Verif.Engine.C40_keyGeneration_violated
* Verif.Engine.C40_glweCiphertextVectorTrivialEncryption_violated
* Verif.Engine.C40_lweCiphertextDiscardingBitExtraction_violated
* Verif.Engine.C40_verticalPacking_violated
* Verif.Engine.C40_verticalPacking_never
* Verif.Engine.C40_plaintextVectorDecoding_violated
* Verif.Serde.C42_no_panic
* Verif.Entity.C57_sublists_short
* Verif.Entity.C58_plaintext_vector
* Verif.Entity.C58_violated_lwe_vector
* Verif.Entity.C58_violated_null_polynomial_size
* Verif.Tensor.C104_copy
* Verif.Entity.C105_trivial_ggsw_violated
* Verif.Encode.C111_data_unchecked
* Verif.Lwe.C120_sums_panics

## Quot.sound, propext (43)

* Verif.Csprng.C06_par_fork_eq_fork
* Verif.Csprng.C07_distance
* Verif.Decomp.C08_boundary_precision_release_wrong
* Verif.Decomp.C11_fill_tensor_not_fresh
* Verif.Decomp.C11_violated_by_accumulation
* Verif.Lwe.C14_affine_errors
* Verif.Random.C20_uniform_binary
* Verif.Random.C50_fork_failure_partial
* Verif.Pbs.C27_discarding
* Verif.Pbs.C29_panics
* Verif.Engine.C39_glwe_round_trip
* Verif.Engine.C39_lwe_round_trip
* Verif.Engine.C41_discarding_loading_partial
* Verif.Engine.C40_glweCiphertextCreation_violated
* Verif.Engine.C40_plaintextVectorDecoding_partial
* Verif.Serde.C42_canonical
* Verif.Serde.C42_fourier_malformed_panics
* Verif.Aes.C53_soft
* Verif.Aes.C53_features
* Verif.Aes.sbox_spec
* Verif.Entity.C57_lwe_list_allocate
* Verif.Entity.C57_glwe_secret_key
* Verif.Entity.C57_bootstrap_key_allocate
* Verif.Entity.C57_ggsw_seeded_allocate
* Verif.Entity.C58_lwe_ciphertext
* Verif.Cuda.C69_large_vector_violated
* Verif.Ffi.C73_capacity_needed
* Verif.Ffi.C74_refused_partial
* Verif.Ffi.C74_result_ok
* Verif.Ffi.C74_result_failed
* Verif.Ffi.C74_unchecked
* Verif.Cuda.Cbs.C86_full_precision_violated
* Verif.Cuda.Wm.C87_wop_partial
* Verif.Cuda.Wm.C87_wop_violated
* Verif.Cuda.Be.C88_no_padding_violated
* Verif.Tensor.C104_op
* Verif.Tensor.C104_fold
* Verif.Tensor.C104_rotations
* Verif.Encode.C111_data
* Verif.Numeric.C116_panics
* Verif.Numeric.C116_blocks
* Verif.Numeric.C116_documented_partial
* Verif.Numeric.C116_injective

## Classical.choice, Quot.sound, propext (696)

* Verif.Csprng.C01_generator_outputs_table_slice
* Verif.Csprng.C01_default_generator
* Verif.Csprng.C01_bad_range_panics
* Verif.Csprng.C02_fork_splits_stream
* Verif.Csprng.C03_no_byte_output_twice
* Verif.Csprng.C03_default_generator
* Verif.Csprng.C04_remaining_bytes
* Verif.Csprng.C04_is_bounded
* Verif.Csprng.C05_fork_outcome_partial
* Verif.Csprng.C05_bytes_left
* Verif.Csprng.C07_index_arithmetic
* Verif.Decomp.C08_closest_representable
* Verif.Decomp.C09_decompose
* Verif.Decomp.C10_recompose
* Verif.Decomp.C11_decompose_tensor
* Verif.Decomp.C11_fill_tensor_with_recompose_partial
* Verif.Lwe.C12_decrypt_is_phase
* Verif.Lwe.C12_encrypt_decrypt
* Verif.Lwe.C12_debug_binary
* Verif.Lwe.C12_debug_ternary_panics
* Verif.Lwe.C13_discard_add
* Verif.Lwe.C13_fuse_add
* Verif.Lwe.C13_discard_sub
* Verif.Lwe.C13_fuse_sub
* Verif.Lwe.C13_discard_opp
* Verif.Lwe.C13_fuse_opp
* Verif.Lwe.C13_discard_mul_cleartext
* Verif.Lwe.C13_fuse_mul_cleartext
* Verif.Lwe.C13_discard_add_plaintext
* Verif.Lwe.C13_fuse_add_plaintext
* Verif.Lwe.C13_discard_sub_plaintext
* Verif.Lwe.C13_fuse_sub_plaintext
* Verif.Lwe.C13_dimension_mismatch
* Verif.Lwe.C13_history
* Verif.Lwe.C14_affine_partial
* Verif.Lwe.C14_violated
* Verif.Lwe.C15_trivial
* Verif.Glwe.C15_glwe_trivial
* Verif.Random.C20_uniform
* Verif.Random.C20_uniform_tensor
* Verif.Random.C20_uniform_ternary
* Verif.Random.C20_uniform_lsb
* Verif.Random.C20_uniform_msb
* Verif.Random.C20_gaussian_pair
* Verif.Lwe.C16_keyswitch
* Verif.Lwe.C16_error_bound
* Verif.Lwe.C16_generated_key
* Verif.Lwe.C17_lwe
* Verif.Lwe.C17_lwe_mask_state
* Verif.Lwe.C17_lwe_none
* Verif.Lwe.C17_lwe_list
* Verif.Lwe.C17_keyswitch_key
* Verif.Glwe.C17_glwe
* Verif.Glwe.C17_glwe_list
* Verif.Glwe.C17_ggsw
* Verif.Glwe.C17_bootstrap_key
* Verif.Lwe.C18_lwe_list_schedule
* Verif.Lwe.C18_lwe_list_elements
* Verif.Lwe.C18_lwe_list_masks_partial
* Verif.Lwe.C18_lwe_list_noise_differs
* Verif.Lwe.C18_empty_list_panics
* Verif.Glwe.C18_ggsw_schedule
* Verif.Glwe.C18_ggsw_par_eq_seq
* Verif.Glwe.C18_bootstrap_key
* Verif.Lwe.C19_lwe
* Verif.Lwe.C19_lwe_tight
* Verif.Glwe.C19_ggsw_masks
* Verif.Glwe.C19_ggsw_only_noise_fails
* Verif.Pks.C19_glwe
* Verif.Pks.C19_glwe_list_masks
* Verif.Pks.C19_bsk_masks
* Verif.Pks.C19_bsk_only_noise_fails
* Verif.Pks.C19_private_key_masks
* Verif.Pks.C19_private_key_only_noise_fails
* Verif.Pks.C19_cbs_masks
* Verif.Gsw.C19_gsw_masks
* Verif.Poly.C21_convolution
* Verif.Poly.C21_add_mul
* Verif.Poly.C21_sub_mul
* Verif.Poly.C21_comm
* Verif.Poly.C21_assoc
* Verif.Poly.C21_distrib
* Verif.Poly.C21_multisum
* Verif.Poly.C21_several
* Verif.Poly.C21_faithful
* Verif.Poly.C21_debug_binary
* Verif.Poly.C21_debug_ternary_panics
* Verif.Poly.C22_karatsuba_partial
* Verif.Poly.C22_small_sizes_diverge
* Verif.Poly.C22_powers_of_two_partial
* Verif.Poly.C23_monomial_mul
* Verif.Poly.C23_monomial_div
* Verif.Poly.C23_monomial_mul_coeff
* Verif.Poly.C23_inverse
* Verif.Poly.C23_period
* Verif.Poly.C23_as_product
* Verif.Poly.C23_list
* Verif.Glwe.C24_decrypt_encrypt
* Verif.Glwe.C24_encrypt_ok
* Verif.Glwe.C24_encrypt_zero
* Verif.Glwe.C24_list
* Verif.Glwe.C25_sample_extraction
* Verif.Glwe.C25_words
* Verif.Glwe.C25_panics
* Verif.Glwe.C26_par_encrypt
* Verif.Glwe.C26_encrypt
* Verif.Glwe.C26_bootstrap_key
* Verif.Glwe.C26_trivial_in_place_partial
* Verif.Glwe.C26_trivial_new
* Verif.Glwe.C26_trivial_violated
* Verif.Pbs.C27_external_product
* Verif.Pbs.C27_error_bound
* Verif.Pbs.C27_exact
* Verif.Pbs.C27_ntt_rounding
* Verif.Pbs.C27_discarding_phase
* Verif.Ntt.ntt_accurate
* Verif.Pbs.C28_cmux
* Verif.Pbs.C29_modulus_switch
* Verif.Pbs.C29_offset
* Verif.Pbs.C29_limit_overflow
* Verif.Pbs.C30_blind_rotation
* Verif.Pbs.C31_bootstrap
* Verif.Pbs.C31_switched_phase
* Verif.Pbs.C31_lookup
* Verif.Pbs.C31_trivial_accumulator
* Verif.Pbs.C31_generated_key
* Verif.Ntt.C31_ntt
* Verif.Ntt.C31_ntt_shipped64
* Verif.Ntt.C31_ntt_shipped32
* Verif.Ntt.C34_round_trip
* Verif.Ntt.C34_forward
* Verif.Ntt.index_safe
* Verif.Ntt.C34_shipped
* Verif.Ntt.C35_convolution
* Verif.Ntt.C35_product
* Verif.Ntt.C35_shipped
* Verif.Ntt.C36_shipped
* Verif.Ntt.P32_128.C36_table
* Verif.Ntt.P32_256.C36_table
* Verif.Ntt.P32_512.C36_table
* Verif.Ntt.P32_1024.C36_table
* Verif.Ntt.P32_2048.C36_table
* Verif.Ntt.P32_4096.C36_table
* Verif.Ntt.P64_128.C36_table
* Verif.Ntt.P64_256.C36_table
* Verif.Ntt.P64_512.C36_table
* Verif.Ntt.P64_1024.C36_table
* Verif.Ntt.P64_2048.C36_table
* Verif.Ntt.P64_4096.C36_table
* Verif.Ntt.C37_operations
* Verif.Ntt.C38_into
* Verif.Ntt.C38_from
* Verif.Ntt.C38_round_trip
* Verif.Ntt.C38_round_trip_one
* Verif.Ntt.C38_round_trip_q
* Verif.Ntt.C38_digit
* Verif.Ntt.C38_digit_shipped
* Verif.Pks.C32_one
* Verif.Pks.C32_packing
* Verif.Pks.C32_decrypt
* Verif.Pks.C32_generated_key
* Verif.Pks.C32_too_many
* Verif.Pks.C33_one
* Verif.Pks.C33_error_bound
* Verif.Pks.C33_packing
* Verif.Pks.C33_generated_key
* Verif.Pks.C33_schedule
* Verif.Pks.C33_budget
* Verif.Pks.C33_too_many
* Verif.Pks.C33_cbs_keys
* Verif.Pks.C33_cbs_schedule
* Verif.Pks.C33_cbs_count
* Verif.Wop.C43_cmux_tree
* Verif.Wop.C43_wrong_count
* Verif.Wop.C44_vertical_packing
* Verif.Wop.C44_lookup
* Verif.Wop.C44_too_few
* Verif.Wop.C44_u32_debug
* Verif.Wop.C44_u32_release_violated
* Verif.Wop.C45_extract_bits
* Verif.Wop.C45_delta_zero_panics
* Verif.Wop.C46_circuit_bootstrap
* Verif.Wop.C46_wrong_keys
* Verif.Wop.C51_pipeline
* Verif.Engine.C39_decrypts_samples
* Verif.Engine.C41_loading_partial
* Verif.Engine.C41_reversed
* Verif.Engine.C47_public_key
* Verif.Engine.C47_any_key
* Verif.Engine.C47_errors
* Verif.Engine.C48_discard_add
* Verif.Engine.C48_discard_sub
* Verif.Engine.C48_fuse_add
* Verif.Engine.C48_fuse_sub
* Verif.Engine.C48_add_plaintext
* Verif.Engine.C48_mul_cleartext_partial
* Verif.Engine.C48_mul_cleartext_violated
* Verif.Engine.C49_read_after_write
* Verif.Engine.C49_history
* Verif.Engine.C49_iterator
* Verif.Engine.C40_cleartextVectorCreation
* Verif.Engine.C40_cleartextVectorDiscardingConversion
* Verif.Engine.C40_cleartextVectorDiscardingRetrieval
* Verif.Engine.C40_cleartextVectorEncoding
* Verif.Engine.C40_ggswCiphertextDiscardingConversion
* Verif.Engine.C40_ggswCiphertextScalarDiscardingEncryption
* Verif.Engine.C40_glweCiphertextDecryption
* Verif.Engine.C40_glweCiphertextDiscardingConversion
* Verif.Engine.C40_glweCiphertextDiscardingDecryption
* Verif.Engine.C40_glweCiphertextDiscardingEncryption
* Verif.Engine.C40_glweCiphertextDiscardingTrivialEncryption
* Verif.Engine.C40_glweCiphertextEncryption
* Verif.Engine.C40_glweCiphertextGgswCiphertextExternalProduct
* Verif.Engine.C40_glweCiphertextVectorDecryption
* Verif.Engine.C40_glweCiphertextVectorDiscardingConversion
* Verif.Engine.C40_glweCiphertextVectorDiscardingDecryption
* Verif.Engine.C40_glweCiphertextVectorDiscardingEncryption
* Verif.Engine.C40_glweCiphertextVectorZeroEncryption
* Verif.Engine.C40_glweCiphertextsGgswCiphertextFusingCmux
* Verif.Engine.C40_glweSecretKeyDiscardingConversion
* Verif.Engine.C40_glweSecretKeyGeneration
* Verif.Engine.C40_glweSeededCiphertextEncryption
* Verif.Engine.C40_lweBootstrapKeyDiscardingConversion
* Verif.Engine.C40_lweCiphertextCleartextDiscardingMultiplication
* Verif.Engine.C40_lweCiphertextCreation
* Verif.Engine.C40_lweCiphertextDiscardingAddition
* Verif.Engine.C40_lweCiphertextDiscardingBootstrap
* Verif.Engine.C40_lweCiphertextDiscardingConversion
* Verif.Engine.C40_lweCiphertextDiscardingDecryption
* Verif.Engine.C40_lweCiphertextDiscardingEncryption
* Verif.Engine.C40_lweCiphertextDiscardingExtraction
* Verif.Engine.C40_lweCiphertextDiscardingKeyswitch
* Verif.Engine.C40_lweCiphertextDiscardingOpposite
* Verif.Engine.C40_lweCiphertextDiscardingPublicKeyEncryption
* Verif.Engine.C40_lweCiphertextDiscardingSubtraction
* Verif.Engine.C40_lweCiphertextFusingAddition
* Verif.Engine.C40_lweCiphertextFusingSubtraction
* Verif.Engine.C40_lweCiphertextPlaintextDiscardingAddition
* Verif.Engine.C40_lweCiphertextPlaintextDiscardingSubtraction
* Verif.Engine.C40_lweCiphertextVectorCleartextVectorDiscardingMultiplication
* Verif.Engine.C40_lweCiphertextVectorCreation
* Verif.Engine.C40_lweCiphertextVectorDecryption
* Verif.Engine.C40_lweCiphertextVectorDiscardingAddition
* Verif.Engine.C40_lweCiphertextVectorDiscardingAffineTransformation
* Verif.Engine.C40_lweCiphertextVectorDiscardingBootstrap
* Verif.Engine.C40_lweCiphertextVectorDiscardingCircuitBootstrapBoolean
* Verif.Engine.C40_lweCiphertextVectorDiscardingConversion
* Verif.Engine.C40_lweCiphertextVectorDiscardingDecryption
* Verif.Engine.C40_lweCiphertextVectorDiscardingEncryption
* Verif.Engine.C40_lweCiphertextVectorDiscardingKeyswitch
* Verif.Engine.C40_lweCiphertextVectorDiscardingOpposite
* Verif.Engine.C40_lweCiphertextVectorDiscardingSubtraction
* Verif.Engine.C40_lweCiphertextVectorFusingAddition
* Verif.Engine.C40_lweCiphertextVectorFusingSubtraction
* Verif.Engine.C40_lweCiphertextVectorGlweCiphertextDiscardingPackingKeyswitch
* Verif.Engine.C40_lweCiphertextVectorGlweCiphertextDiscardingPrivateFunctionalPackingKeyswitch
* Verif.Engine.C40_lweCiphertextVectorPlaintextVectorDiscardingAddition
* Verif.Engine.C40_lweCiphertextVectorZeroEncryption
* Verif.Engine.C40_lweKeyswitchKeyDiscardingConversion
* Verif.Engine.C40_lwePublicKeyGeneration
* Verif.Engine.C40_lweSecretKeyDiscardingConversion
* Verif.Engine.C40_lweSecretKeyGeneration
* Verif.Engine.C40_plaintextVectorCreation
* Verif.Engine.C40_plaintextVectorDecoding
* Verif.Engine.C40_plaintextVectorDiscardingConversion
* Verif.Engine.C40_plaintextVectorDiscardingRetrieval
* Verif.Engine.C40_keyGeneration_partial
* Verif.Engine.C40_lwePrivateFunctionalPackingKeyswitchKeyGeneration_partial
* Verif.Engine.C40_lweKeyswitchKeyCreation_partial
* Verif.Engine.C40_lweBootstrapKeyCreation_partial
* Verif.Engine.C40_lweBootstrapKeyCreation_violated
* Verif.Engine.C40_glweCiphertextCreation_partial
* Verif.Engine.C40_glweCiphertextVectorCreation_partial
* Verif.Engine.C40_glweCiphertextVectorCreation_violated
* Verif.Engine.C40_glweCiphertextVectorEncryption
* Verif.Engine.C40_glweCiphertextVectorTrivialEncryption_partial
* Verif.Engine.C40_lweToGlweSecretKeyTransformation
* Verif.Engine.C40_lweCiphertextDiscardingBitExtraction_partial
* Verif.Engine.C40_fft
* Verif.Engine.C40_discardingExternalProduct_partial
* Verif.Engine.C40_discardingExternalProduct_violated
* Verif.Engine.C40_verticalPacking_partial
* Verif.Engine.C40_checked_call
* Verif.Serde.C42_round_trip
* Verif.Serde.C42_injective
* Verif.Serde.C42_truncated
* Verif.Serde.C42_unsupported_version_partial
* Verif.Serde.C42_unsupported_never_accepted
* Verif.Serde.C42_fourier_round_trip
* Verif.Serde.C42_fourier_truncated
* Verif.Serde.C42_fourier_unsupported_version_partial
* Verif.Gsw.C52_encrypt
* Verif.Gsw.C52_encrypt_defined
* Verif.Gsw.C52_debug_overflow
* Verif.Gsw.C52_debug_eq_release
* Verif.Gsw.C52_parallel
* Verif.Gsw.C52_trivial
* Verif.Gsw.C52_external_product
* Verif.Gsw.C52_external_product_bound
* Verif.Gsw.C52_cmux
* Verif.Aes.C53_aesni
* Verif.Aes.C53_aarch64
* Verif.Aes.C53_backends_agree
* Verif.Aes.C53_default_generator
* Verif.Encode.C54_roundtrip_partial
* Verif.Encode.C54_noise_partial
* Verif.Encode.C54_plaintext_partial
* Verif.Encode.C54_violated_beyond_max
* Verif.Encode.C54_violated_high_precision
* Verif.Encode.C55_from_torus_partial
* Verif.Encode.C55_roundtrip
* Verif.Encode.C55_violated_below_half
* Verif.Encode.C55_violated_negative_half
* Verif.Encode.C56_create_min_max
* Verif.Encode.C56_create_center_radius_partial
* Verif.Encode.C56_create_vector
* Verif.Encode.C56_create_vector_center_radius
* Verif.Encode.C56_violated_vector_small_radius
* Verif.Encode.C56_encode
* Verif.Encode.C56_encode_vector
* Verif.Encode.C56_violated_nan
* Verif.Encode.C56_violated_small_radius
* Verif.Encode.C56_violated_debug_shift
* Verif.Encode.C56_violated_decode_mismatch
* Verif.Entity.C57_lwe_list
* Verif.Entity.C57_lwe_sublists
* Verif.Entity.C57_keyswitch_key
* Verif.Entity.C57_keyswitch_key_allocate
* Verif.Entity.C57_seeded_keyswitch_key
* Verif.Entity.C57_glwe
* Verif.Entity.C57_glwe_list
* Verif.Entity.C57_glwe_list_allocate
* Verif.Entity.C57_glwe_seeded_list
* Verif.Entity.C57_ggsw
* Verif.Entity.C57_ggsw_allocate
* Verif.Entity.C57_bootstrap_key
* Verif.Entity.C57_bootstrap_key_layout
* Verif.Entity.C57_ggsw_seeded
* Verif.Entity.C57_seeded_bootstrap_key
* Verif.Entity.C57_packing_key
* Verif.Entity.C57_packing_key_allocate
* Verif.Entity.C57_packing_key_list
* Verif.Entity.C58_glwe_ciphertext
* Verif.Entity.C58_glwe_ciphertext_vector
* Verif.Entity.C58_keyswitch_key
* Verif.Entity.C58_bootstrap_key
* Verif.Entity.C58_lwe_ciphertext_vector_partial
* Verif.Session.C59_masks_step
* Verif.Session.C59_masks
* Verif.Session.C59_seeded_step
* Verif.Session.C59_seeds
* Verif.Session.C59_lwe_key
* Verif.Session.C59_glwe_key
* Verif.Session.C60_advance
* Verif.Session.C60_step
* Verif.Session.C60_error
* Verif.Session.C60_run_advance
* Verif.Session.C60_disjoint
* Verif.Session.C60_run
* Verif.Session.C61_default
* Verif.Session.C61_parallel
* Verif.Session.C61_generator
* Verif.Session.C61_words_partial
* Verif.Session.C61_shared_stream
* Verif.Session.C61_key_leak
* Verif.Circuit.C62_circuit
* Verif.Circuit.C62_decode
* Verif.Circuit.C62_keys
* Verif.Circuit.C62_inputs
* Verif.Circuit.C62_end_to_end
* Verif.Circuit.C62_ntt_transform
* Verif.Fft.C63_products_partial
* Verif.Fft.C63_bootstrap_partial
* Verif.Fft.C63_avx512_subtracts
* Verif.Fft.C63_avx512_violated
* Verif.Fft.fft_accurate
* Verif.Fft.idealPlan_accurate
* Verif.Fft.idealSinCos_accurate
* Verif.Fft.C64_int_to_float
* Verif.Fft.C64_float_to_int
* Verif.Fft.C64_to_torus_partial
* Verif.Fft.C64_forward_integer
* Verif.Fft.C64_float_to_int_avx512_violated
* Verif.Fft.C64_small_sizes_violated
* Verif.Fft.Cache.C65_same_plan
* Verif.Fft.Cache.C65_once
* Verif.Fft.Cache.C65_progress
* Verif.Fft.Cache.C65_bounded
* Verif.Fft.Cache.C65_complete
* Verif.Fft.Cache.C65_failures
* Verif.Scratch.C66_conversions
* Verif.Scratch.C66_externalProduct
* Verif.Scratch.C66_cmux
* Verif.Scratch.C66_bootstrap
* Verif.Scratch.C66_extractBits
* Verif.Scratch.C66_circuitBootstrap
* Verif.Scratch.C66_verticalPacking_partial
* Verif.Scratch.C66_verticalPacking_violated
* Verif.Scratch.C66_callerStack
* Verif.Wop.C67_partial
* Verif.Wop.C67_violated
* Verif.Wop.C67_never
* Verif.Capi.C68_add
* Verif.Capi.C68_mul_cleartext
* Verif.Capi.C68_negate
* Verif.Capi.C68_add_plaintext_partial
* Verif.Capi.C68_add_plaintext_violated
* Verif.Capi.C68_keyswitch
* Verif.Capi.C68_bootstrap
* Verif.Capi.C68_extract_bit_violated
* Verif.Capi.C68_extract_bit_never
* Verif.Capi.C68_vertical_packing_keys_violated
* Verif.Capi.C68_vertical_packing_unwritten
* Verif.Capi.C68_vertical_packing_never
* Verif.Capi.C68_stack
* Verif.Cuda.C69_roundtrip_partial
* Verif.Cuda.C69_roundtrip_iff
* Verif.Cuda.C69_few_elements_violated
* Verif.Cuda.C69_large_remainder_violated
* Verif.Cuda.C69_small_remainder_violated
* Verif.Cuda.C69_empty_violated
* Verif.Cuda.C69_broadcast
* Verif.Cuda.C69_memory_check_partial
* Verif.Cuda.C69_memory_check_violated
* Verif.Cuda.C70_opposite_partial
* Verif.Cuda.C70_addition_partial
* Verif.Cuda.C70_plaintext_addition_partial
* Verif.Cuda.C70_cleartext_multiplication_partial
* Verif.Cuda.C70_few_ciphertexts_violated
* Verif.Cuda.C71_keyswitch_outcomes
* Verif.Cuda.C71_keyswitch_partial
* Verif.Cuda.C71_body_lost_violated
* Verif.Cuda.C71_progress
* Verif.Cuda.C71_refused_violated
* Verif.Cuda.C72_launch
* Verif.Cuda.C72_packing_partial
* Verif.Cuda.C72_many_violated
* Verif.Cuda.C72_unchanged_violated
* Verif.Cuda.C72_remainder_violated
* Verif.Ffi.C73_ledger_partial
* Verif.Ffi.C73_destroy_partial
* Verif.Ffi.C73_destroy_buffer_partial
* Verif.Ffi.C73_transform_violated
* Verif.Ffi.C74_success
* Verif.Ffi.C74_view_violated
* Verif.Cuda.C75_amortized
* Verif.Cuda.C75_low_latency_partial
* Verif.Cuda.C75_low_latency_violated
* Verif.Cuda.Low.C76_low_latency_partial
* Verif.Cuda.Low.C76_one_level
* Verif.Cuda.Low.C76_no_deadlock
* Verif.Cuda.Low.C76_external
* Verif.Cuda.Low.C76_race_violated
* Verif.Cuda.Low.C76_result_violated
* Verif.Cuda.C77_single
* Verif.Cuda.C77_amortized_partial
* Verif.Cuda.C77_low_latency_partial
* Verif.Cuda.C77_amortized_tables
* Verif.Cuda.C77_low_latency_tables
* Verif.Cuda.C77_tables_violated
* Verif.Cuda.C77_overrun_violated
* Verif.Cuda.C77_low_latency_filled_violated
* Verif.Cuda.C78_switch_32
* Verif.Cuda.C78_switch_64_partial
* Verif.Cuda.C78_switch_64_violated
* Verif.Cuda.Thr.C79_divide
* Verif.Cuda.Thr.C79_zero
* Verif.Cuda.Thr.C79_rotate
* Verif.Cuda.Thr.C79_prepare_partial
* Verif.Cuda.Thr.C79_prepare_violated
* Verif.Cuda.Thr.C79_extract
* Verif.Cuda.Am.C80_step_partial
* Verif.Cuda.Am.C80_same_as_cpu
* Verif.Cuda.Am.C80_bootstrap_32
* Verif.Cuda.Am.C80_lookup_32
* Verif.Cuda.Am.C80_lookup_64_partial
* Verif.Cuda.Am.C81_lookup_32_partial
* Verif.Cuda.Am.C81_lookup_64_partial
* Verif.Cuda.Nsm.C82_direct_threads
* Verif.Cuda.Nsm.C82_inverse_threads
* Verif.Cuda.Nsm.C82_direct_values
* Verif.Cuda.Nsm.C82_roundtrip
* Verif.Cuda.Nsm.C82_products
* Verif.Cuda.Nsm.C82_table
* Verif.Cuda.Nsm.C83_products
* Verif.Cuda.Nsm.C83_amortized_32
* Verif.Cuda.Nsm.C83_amortized_64_partial
* Verif.Cuda.Nsm.C83_low_latency_32_partial
* Verif.Cuda.Nsm.C83_low_latency_64_partial
* Verif.Cuda.Nsm.C83_modulus_violated
* Verif.Fft.C84_coefficients
* Verif.Fft.C84_bootstrap_partial
* Verif.Fft.C84_external_product_partial
* Verif.Cuda.Vp.C85_cmux_partial
* Verif.Cuda.Vp.C85_vertical_packing_partial
* Verif.Cuda.Vp.C85_lookup_partial
* Verif.Cuda.Vp.C85_few_bits_violated
* Verif.Cuda.Vp.C85_order_violated
* Verif.Cuda.Vp.C85_rounding_violated
* Verif.Cuda.Cbs.C86_circuit_bootstrap_64_partial
* Verif.Cuda.Cbs.C86_circuit_bootstrap_32_partial
* Verif.Cuda.Cbs.C86_pipeline_64_partial
* Verif.Cuda.Cbs.C86_many_inputs_violated
* Verif.Cuda.Cbs.C86_multi_gpu_violated
* Verif.Cuda.Wm.C87_arrays_partial
* Verif.Cuda.Wm.C87_tree_blocks
* Verif.Cuda.Wm.C87_rotation_blocks
* Verif.Cuda.Wm.C87_indexes_partial
* Verif.Cuda.Wm.C87_extract_partial
* Verif.Cuda.Wm.C87_indexes_violated
* Verif.Cuda.Wm.C87_no_layer_violated
* Verif.Cuda.Wm.C87_alignment_32_violated
* Verif.Cuda.Wm.C87_fft_memory_violated
* Verif.Cuda.Wm.C87_extract_violated
* Verif.Cuda.Be.C88_extract_bits_64_partial
* Verif.Cuda.Be.C88_extract_bits_32_partial
* Verif.Cuda.Be.C88_multi_gpu_violated
* Verif.Cuda.Be.C88_body_lost_violated
* Verif.Wop.C89_cpu
* Verif.Cuda.Wp.C89_cuda_64_partial
* Verif.Cuda.Wp.C89_cuda_32_partial
* Verif.Cuda.Wp.C89_order_violated
* Verif.Cuda.Bg.C90_gates_partial
* Verif.Cuda.Bg.C90_not
* Verif.Cuda.Bg.C90_circuit_partial
* Verif.Cuda.Bg.C90_leak_violated
* Verif.Cuda.Bg.C90_body_lost_violated
* Verif.Cuda.Bg.C90_empty_violated
* Verif.Random.Gauss.C91_noise_bounded
* Verif.Random.Gauss.C91_no_noise
* Verif.Random.Gauss.C91_lwe
* Verif.Random.Gauss.C91_glwe
* Verif.Random.Gauss.C91_keyswitch
* Verif.Random.Gauss.C91_bound_reached
* Verif.Random.Gauss.C91_invalid_violated
* Verif.Circuit.C92_session_partial
* Verif.Fft.Parallel.C93_checks
* Verif.Fft.Parallel.C93_unchecked
* Verif.Fft.Parallel.C93_parallel
* Verif.Fft.Parallel.C93_completes
* Verif.Fft.Parallel.C93_unchecked_mismatch
* Verif.Fft.Parallel.C93_lookup_partial
* Verif.Random.Disp.C94_powers
* Verif.Random.Disp.C94_std_round_trip
* Verif.Random.Disp.C94_variance_round_trip_violated
* Verif.Random.Disp.C94_variance_round_trip_partial
* Verif.Random.Disp.C94_log
* Verif.Random.Disp.C94_from_modular
* Verif.Random.Disp.C94_modular_round_trip
* Verif.Random.Disp.C94_range_violated
* Verif.Session.C95_lwe
* Verif.Session.C95_glwe
* Verif.Session.C95_lwe_seeded
* Verif.Session.C95_glwe_seeded
* Verif.Session.C95_trivial_lwe
* Verif.Session.C95_trivial_glwe
* Verif.Session.C95_trivial_glwe_one
* Verif.Session.C95_lwe_mismatch
* Verif.Session.C95_glwe_mismatch
* Verif.Session.C95_unchecked_dimension_violated
* Verif.Npe.C96_binary
* Verif.Npe.C96_ternary
* Verif.Npe.C96_gaussian
* Verif.Npe.C96_zero
* Verif.Npe.C98_keyswitch
* Verif.Npe.C97_addition
* Verif.Npe.C97_several_additions
* Verif.Npe.C97_integer_multiplication
* Verif.Npe.C97_weighted_sum
* Verif.Npe.C97_polynomial_multiplication
* Verif.Npe.C97_weight_overflow_violated
* Verif.Npe.C97_switch_key
* Verif.Npe.C97_switch_estimate
* Verif.Npe.C97_pbs
* Verif.Npe.C97_cmux
* Verif.Npe.C97_bit_extraction
* Verif.Npe.C97_wop_pbs
* Verif.Npe.C99_external_product
* Verif.Npe.C99_constant_coefficient_violated
* Verif.Npe.C100_packing
* Verif.Npe.C100_private
* Verif.Npe.C101_cmux
* Verif.Npe.C102_noise_bits
* Verif.Npe.C102_noise_tail
* Verif.Npe.C102_msb
* Verif.Npe.C102_multiplication
* Verif.Npe.C102_relinearization_violated
* Verif.Npe.C102_relinearization_key
* Verif.Npe.C102_tensor_rounding
* Verif.Npe.C102_tensor_noise
* Verif.Npe.C102_tensor_sign_violated
* Verif.Random.C103_draw
* Verif.Random.C103_tensor
* Verif.Random.C103_probability
* Verif.Random.C103_extremes
* Verif.Random.C103_probability_one_violated
* Verif.Tensor.C104_fill_with_two
* Verif.Tensor.C104_update_with_two
* Verif.Tensor.C104_fill_with_one
* Verif.Tensor.C104_update_with_one
* Verif.Tensor.C104_update_two_with_one
* Verif.Tensor.C104_fill_two_with_one
* Verif.Tensor.C104_fill_with_op
* Verif.Tensor.C104_update_with_op
* Verif.Tensor.C104_update_with_scalar
* Verif.Tensor.C104_element_mul
* Verif.Entity.C105_extraction
* Verif.Entity.C105_keyswitch
* Verif.Entity.C105_packing
* Verif.Entity.C105_private_packing
* Verif.Entity.C105_convert_bootstrap_key
* Verif.Entity.C105_convert_keyswitch_key
* Verif.Entity.C105_trivial_ggsw
* Verif.Session.C106_keyswitch_key
* Verif.Session.C106_seeded_keyswitch_key
* Verif.Session.C106_packing_key
* Verif.Session.C106_private_packing_key
* Verif.Session.C106_bootstrap_key
* Verif.Session.C106_seeded_bootstrap_key
* Verif.Session.C106_circuit_keys
* Verif.Serde.C107_accepted_iff
* Verif.Serde.C107_width_partial
* Verif.Serde.C107_secret_key_violated
* Verif.Serde.C107_width_violated
* Verif.Serde.C107_dimensions_violated
* Verif.Pbs.C108_convert_ggsw
* Verif.Pbs.C108_discard_convert_ggsw
* Verif.Pbs.C108_convert_bootstrap_key
* Verif.Pbs.C108_external_product
* Verif.Pbs.C108_cmux
* Verif.Pbs.C108_bootstrap
* Verif.Pbs.C108_history
* Verif.Wop.C109_extract_bits_partial
* Verif.Wop.C109_extract_bits_violated
* Verif.Wop.C109_packing_errors
* Verif.Wop.C109_packing_partial
* Verif.Wop.C109_packing_violated
* Verif.Wop.C109_no_output_violated
* Verif.Wop.C109_u32_violated
* Verif.Wop.C109_history
* Verif.Random.C110_words
* Verif.Random.C110_bits
* Verif.Random.C110_lsb
* Verif.Random.C110_msb
* Verif.Random.C110_ternary
* Verif.Random.C110_secret_key
* Verif.Random.C110_mask
* Verif.Random.C110_noise_signs
* Verif.Random.C110_noise_mean
* Verif.Encode.C111_lwe
* Verif.Encode.C111_glwe
* Verif.Encode.C111_real_encoder
* Verif.Encode.C111_lists
* Verif.Random.C112_refused
* Verif.Random.C112_noise
* Verif.Random.C112_lwe
* Verif.Random.C112_polynomial
* Verif.Random.C112_lwe_list
* Verif.Random.C112_bootstrap_key
* Verif.Random.C112_seeded_bootstrap_key
* Verif.Random.C112_ggsw
* Verif.Random.C112_seeded_ggsw
* Verif.Random.C112_private_key
* Verif.Random.C112_cbs_keys
* Verif.Lwe.Kinds.C113_values
* Verif.Lwe.Kinds.C113_release
* Verif.Lwe.Kinds.C113_debug_partial
* Verif.Lwe.Kinds.C113_debug_masks
* Verif.Lwe.Kinds.C113_debug_binary
* Verif.Lwe.Kinds.C113_debug_ternary_violated
* Verif.Lwe.Kinds.C113_glwe
* Verif.Ntt.C114_values
* Verif.Ntt.C114_panics
* Verif.Ntt.C114_counts
* Verif.Ntt.C114_decrypt
* Verif.Ntt.C114_second
* Verif.Ntt.C114_shipped
* Verif.Lwe.C115_release
* Verif.Lwe.C115_debug
* Verif.Lwe.C115_debug_dimension
* Verif.Lwe.C115_pipeline
* Verif.Numeric.C116_blocks_violated
* Verif.Csprng.C117_stream
* Verif.Csprng.C117_draws_partial
* Verif.Csprng.C117_repeats_violated
* Verif.Fft.C118_checks
* Verif.Fft.C118_round_trip
* Verif.Fft.C118_encrypts
* Verif.Session.C119_expand
* Verif.Session.C119_parallel
* Verif.Session.C119_same_seed
* Verif.Session.C119_glwe
* Verif.Lwe.C120_sums_partial
* Verif.Lwe.C120_decrypt_list
* Verif.Lwe.C120_violated_content
* Verif.Lwe.C120_violated_count
