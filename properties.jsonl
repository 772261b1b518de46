{"id": "C01", "title": "The random generator outputs exactly its slice of the AES-CTR table", "statement": "A generator created on the table range [start, bound) returns, on successive calls of next, byte start, byte start+1, ..., byte bound-1 of the (AES(key, counter), byte) table, in order, without skip or repetition, and then None for ever, whatever the internal 128-byte buffering does.", "quantifier": "every block cipher (arbitrary function of the counter), every start < bound (start not the very first byte of the table), every number of calls", "why_tests_cant": "the table has 2^132 bytes; refills happen at data dependent positions and only an induction over the calls covers every alignment of start, bound and buffer", "anchors": ["concrete-csprng/src/generators/aes_ctr/generic.rs: AesCtrGenerator::from_block_cipher, Iterator::next", "concrete-csprng/src/generators/aes_ctr/states.rs: State::new, State::increase", "concrete-csprng/src/generators/aes_ctr/index.rs: TableIndex"]}
{"id": "C02", "title": "A fork splits the parent's future stream into consecutive blocks", "statement": "When try_fork(n, b) succeeds (and n*b fits the platform's usize), child i outputs exactly bytes i*b .. (i+1)*b-1 of what the parent would have output next, then None, and the parent continues with byte n*b of what it would have output.", "quantifier": "every parent state, every n and b, every block cipher, including forks of forks", "why_tests_cant": "the claim relates complete output streams of n+1 generators; tests compare a few prefixes for a few n, b", "anchors": ["concrete-csprng/src/generators/aes_ctr/generic.rs: try_fork, is_fork_in_bound"]}
{"id": "C03", "title": "No table byte is ever output twice in a family of forked generators", "statement": "Starting from one generator and applying any sequence of next and (non overflowing) try_fork calls to any of the generators obtained so far, two distinct next calls never return the same table byte.", "quantifier": "every finite history of next/fork calls over an arbitrarily growing family of generators", "why_tests_cant": "a history property over unbounded trees of forks", "anchors": ["concrete-csprng/src/generators/aes_ctr/generic.rs", "concrete-csprng/src/lib.rs (documentation: prevent the same substream to be outputted twice)"]}
{"id": "C04", "title": "remaining_bytes counts the bytes that can still be drawn", "statement": "remaining_bytes() returns r iff exactly r further calls of next succeed (saturating at u128::MAX), and is_bounded is true iff the bound is not the end of the table.", "quantifier": "every reachable generator state", "why_tests_cant": "all table positions, including saturation which cannot be reached by execution", "anchors": ["concrete-csprng/src/generators/aes_ctr/generic.rs: remaining_bytes, is_bounded", "concrete-csprng/src/generators/aes_ctr/index.rs: TableIndex::distance"]}
{"id": "C05", "title": "try_fork fails exactly when it should and then changes nothing", "statement": "try_fork returns ZeroChildrenCount / ZeroBytesPerChild iff the corresponding count is zero, ForkTooLarge iff more bytes are requested than remain, and in each of these cases the generator is unchanged; otherwise it succeeds.", "quantifier": "every generator state and every pair of counts; full statement includes counts whose product overflows usize, and requests running over the end of the table", "why_tests_cant": "boundary arithmetic near 2^64 and 2^132 cannot be exercised by running the generator", "anchors": ["concrete-csprng/src/generators/aes_ctr/generic.rs: try_fork, is_fork_in_bound"]}
{"id": "C06", "title": "Parallel fork equals sequential fork", "statement": "par_try_fork gives the same verdict, children and parent state as try_fork.", "quantifier": "every generator state and counts", "why_tests_cant": "needs equality for all states; tests sample", "anchors": ["concrete-csprng/src/generators/aes_ctr/parallel.rs: par_try_fork", "concrete-csprng/src/generators/aes_ctr/generic.rs: try_fork"]}
{"id": "C07", "title": "Table index arithmetic is modular arithmetic on byte positions", "statement": "increase/decrease/increment/decrement move a table position by the given number of bytes modulo 2^132, are inverse of each other, preserve byte_index < 16; ordering is the ordering of positions; distance is the difference.", "quantifier": "every position and every shift", "why_tests_cant": "2^132 positions times 2^64 shifts", "anchors": ["concrete-csprng/src/generators/aes_ctr/index.rs: TableIndex"]}
{"id": "C08", "title": "Signed decomposition: rounding to the closest representable value", "statement": "closest_representable(x) is a multiple of 2^(w-b*l) and no multiple of it is closer to x on the torus; the error is at most 2^(w-b*l-1), ties go up; it is idempotent.", "quantifier": "every x of w bits, every base log b >= 1 and level count l >= 1 with b*l < w", "why_tests_cant": "2^64 inputs times all parameter pairs", "anchors": ["concrete-core/src/commons/math/decomposition/decomposer.rs: closest_representable"]}
{"id": "C09", "title": "Signed decomposition: digits are balanced and recompose exactly", "statement": "decompose(x) yields exactly l terms with levels l, l-1, ..., 1; each digit read as a signed number lies in [-B/2, B/2] (B = 2^b); the sum of digit_i * 2^(w-b*i) modulo 2^w equals closest_representable(x).", "quantifier": "every x of w bits, every b >= 1, l >= 1 with b*l < w", "why_tests_cant": "2^64 inputs times all parameter pairs; carries propagate through all levels", "anchors": ["concrete-core/src/commons/math/decomposition/iter.rs: SignedDecompositionIter, decompose_one_level", "concrete-core/src/commons/math/decomposition/term.rs: to_recomposition_summand"]}
{"id": "C10", "title": "recompose inverts decompose and refuses partially consumed iterators", "statement": "recompose(decompose(x)) = Some(closest_representable(x)); recompose returns None for an iterator from which at least one term was already taken.", "quantifier": "every x, every parameters, every number of consumed terms", "why_tests_cant": "as C09", "anchors": ["concrete-core/src/commons/math/decomposition/decomposer.rs: recompose"]}
{"id": "C11", "title": "Tensor decomposition is the scalar decomposition of each element", "statement": "decompose_tensor yields for each level the tensor of the scalar digits; fill_tensor_with_recompose leaves in the output tensor the closest representable of each element, and refuses partially consumed iterators.", "quantifier": "every tensor, every parameters", "why_tests_cant": "unbounded length tensors", "anchors": ["concrete-core/src/commons/math/decomposition/iter.rs: TensorSignedDecompositionIter", "concrete-core/src/commons/math/decomposition/decomposer.rs: fill_tensor_with_recompose"]}
{"id": "C12", "title": "LWE decryption inverts encryption up to the drawn noise", "statement": "decrypt(key, encrypt(key, m)) = m + e where e is the noise value drawn for that encryption, modulo 2^w.", "quantifier": "every key, mask, noise value, message, dimension", "why_tests_cant": "all keys and all randomness", "anchors": ["concrete-core/src/commons/crypto/secret/lwe.rs: encrypt_lwe, decrypt_lwe, fill_lwe_mask_and_body_for_encryption"]}
{"id": "C13", "title": "Homomorphic linear operations act on the decrypted value", "statement": "Decrypting the result of addition, subtraction, negation, cleartext multiplication, plaintext addition / subtraction of ciphertexts gives exactly the corresponding modular operation on the decrypted inputs.", "quantifier": "every key and every ciphertext of matching dimension (not only fresh encryptions), hence every history of operations", "why_tests_cant": "closed under unbounded composition; depends on all ciphertext words", "anchors": ["concrete-core/src/commons/crypto/lwe/ciphertext.rs: update_with_add, update_with_sub, update_with_neg, update_with_scalar_mul, fill_with_scalar_mul", "concrete-core/src/backends/default/implementation/engines/default_engine/lwe_ciphertext_discarding_addition.rs"]}
{"id": "C14", "title": "Affine transformation of a ciphertext vector computes the weighted sum plus bias and discards the output's previous content", "statement": "After the discarding affine transformation, the output ciphertext decrypts to bias + sum_i w_i * decrypt(c_i), whatever the output ciphertext contained before.", "quantifier": "every key, vector length, weights, bias, previous content of the output", "why_tests_cant": "previous content ranges over all ciphertexts; tests always use a fresh zero output", "anchors": ["concrete-core/src/backends/default/implementation/engines/default_engine/lwe_ciphertext_vector_discarding_affine_transformation.rs", "concrete-core/src/commons/crypto/lwe/ciphertext.rs: fill_with_multisum_with_bias"]}
{"id": "C15", "title": "Trivial LWE/GLWE encryption decrypts to the message under every key", "statement": "A trivial encryption decrypts to exactly its message with any key, and trivial decryption returns it.", "quantifier": "every key, message, dimension", "why_tests_cant": "all keys", "anchors": ["concrete-core/src/commons/crypto/lwe/ciphertext.rs: fill_with_trivial_encryption", "concrete-core/src/commons/crypto/glwe/ciphertext.rs: fill_with_trivial_encryption"]}
{"id": "C16", "title": "Keyswitching preserves the encrypted value up to an explicit error", "statement": "Keyswitching c from key s to key s' gives a ciphertext whose phase under s' is phase_s(c) plus the exact error term sum_i s_i*(a_i - closest(a_i)) - sum_ij digit_ij * e_ij, where e_ij are the noises in the keyswitching key; hence with a noiseless key and binary s the error is at most n * 2^(w-b*l-1).", "quantifier": "every keys, input ciphertext, decomposition parameters, noise in the keyswitching key", "why_tests_cant": "all keys, ciphertexts, noises", "anchors": ["concrete-core/src/commons/crypto/lwe/keyswitch.rs: fill_with_keyswitch_key, keyswitch_ciphertext"]}
{"id": "C17", "title": "Seeded ciphertexts expand to the ciphertext that standard encryption produces from the same mask stream", "statement": "Expanding a seeded LWE/GLWE ciphertext (or list, or keyswitch key, or bootstrap key) gives word for word the ciphertext obtained by standard encryption with a mask generator started from the same seed and the same noise, and it therefore decrypts to the same value.", "quantifier": "every seed/stream, key, message, noise, list length", "why_tests_cant": "all streams; relates two code paths for unbounded lists", "anchors": ["concrete-core/src/commons/crypto/lwe/seeded_ciphertext.rs", "concrete-core/src/commons/crypto/lwe/seeded_list.rs", "concrete-core/src/commons/crypto/lwe/seeded_keyswitch.rs", "concrete-core/src/commons/crypto/glwe/seeded_ciphertext.rs", "concrete-core/src/commons/crypto/secret/lwe.rs: encrypt_seeded_lwe"]}
{"id": "C18", "title": "Parallel encryption does not depend on the schedule and matches sequential encryption", "statement": "Parallel encryption of a list or key gives the same result (ciphertexts, generator state, panic) for every schedule of the workers, and element i decrypts to message i plus its own noise. For LWE lists it uses the same masks as sequential encryption from the same generator (the noises differ, because sequential list encryption does not fork); for GGSW ciphertexts and bootstrap keys, where the sequential code forks too, it equals sequential generation word for word.", "quantifier": "every schedule (order in which list elements are processed), every list, key, generator", "why_tests_cant": "all interleavings", "anchors": ["concrete-core/src/commons/crypto/secret/lwe.rs: encrypt_lwe_list, par_encrypt_lwe_list", "concrete-core/src/commons/crypto/secret/glwe.rs: encrypt_constant_ggsw, par_encrypt_constant_ggsw", "concrete-core/src/commons/crypto/bootstrap/standard/mod.rs: fill_with_new_key, par_fill_with_new_key", "concrete-core/src/commons/crypto/secret/generators/encryption.rs"]}
{"id": "C19", "title": "Random mask budgets match consumption", "statement": "The number of mask bytes reserved by each fork of the encryption generator (per ciphertext, per level, per key) equals the number of bytes its encryption consumes, so encryption from a successful fork never runs out of mask bytes and children never share bytes.", "quantifier": "every dimension, polynomial size, level count, word size", "why_tests_cant": "all parameter choices; running out is a panic at run time for the last ciphertext only", "anchors": ["concrete-core/src/commons/crypto/secret/generators/encryption.rs: mask_bytes_per_*, fork_*"]}
{"id": "C20", "title": "Uniform samplers consume a fixed number of bytes and stay in range", "statement": "Uniform integers are the little-endian reading of the next w/8 bytes; uniform binary samples are the low bit of one byte each (hence 0 or 1); ternary samples are in {0,1,-1}; n-bit lsb/msb samples lie in the documented range.", "quantifier": "every byte stream", "why_tests_cant": "all streams, including rejection loops of any length", "anchors": ["concrete-core/src/commons/math/random/uniform.rs", "concrete-core/src/commons/math/random/uniform_binary.rs", "concrete-core/src/commons/math/random/uniform_ternary.rs", "concrete-core/src/commons/math/random/uniform_lsb.rs", "concrete-core/src/commons/math/random/uniform_msb.rs"]}
{"id": "C21", "title": "Polynomial multiplication is the negacyclic convolution", "statement": "The wrapping polynomial product computes the product in Z/2^w[X]/(X^N+1): coefficient k is sum_{i+j=k} p_i q_j - sum_{i+j=k+N} p_i q_j; it is commutative, associative and distributes over addition.", "quantifier": "every size N >= 1 and all coefficients", "why_tests_cant": "all polynomials of all sizes", "anchors": ["concrete-core/src/commons/math/polynomial/polynomial.rs: fill_with_wrapping_mul, update_with_wrapping_add_mul, update_with_wrapping_sub_mul"]}
{"id": "C22", "title": "Karatsuba multiplication equals schoolbook multiplication", "statement": "fill_with_karatsuba_mul gives the same result as fill_with_wrapping_mul.", "quantifier": "every pair of polynomials of equal size; full claim: for every size", "why_tests_cant": "all coefficients and recursion depths; wrong sizes do not terminate", "anchors": ["concrete-core/src/commons/math/polynomial/polynomial.rs: fill_with_karatsuba_mul, induction_karatsuba"]}
{"id": "C23", "title": "Multiplication and division by a monomial are inverse rotations with sign", "statement": "Multiplying by X^d equals the negacyclic product by X^d for every degree d (also d >= N and d >= 2N); dividing by X^d undoes it; X^(2N) acts as the identity.", "quantifier": "every polynomial, size and degree", "why_tests_cant": "unbounded degrees", "anchors": ["concrete-core/src/commons/math/polynomial/polynomial.rs: update_with_wrapping_monic_monomial_mul, update_with_wrapping_unit_monomial_div"]}
{"id": "C24", "title": "GLWE decryption inverts encryption up to the drawn noise", "statement": "decrypt(key, encrypt(key, m)) = m + e coefficientwise modulo 2^w, where e is the noise polynomial drawn.", "quantifier": "every key, masks, noise, messages, GLWE dimension k, polynomial size N", "why_tests_cant": "all keys and randomness", "anchors": ["concrete-core/src/commons/crypto/secret/glwe.rs: encrypt_glwe, decrypt_glwe"]}
{"id": "C25", "title": "Sample extraction extracts the nth coefficient", "statement": "The LWE ciphertext extracted at index n from a GLWE ciphertext decrypts, under the LWE key obtained from the GLWE key, to coefficient n of the GLWE decryption.", "quantifier": "every GLWE ciphertext, key, k, N, n < N", "why_tests_cant": "all keys and indices", "anchors": ["concrete-core/src/commons/crypto/glwe/ciphertext.rs: fill_lwe_with_sample_extraction", "concrete-core/src/commons/crypto/secret/glwe.rs: into_lwe_secret_key"]}
{"id": "C26", "title": "GGSW ciphertexts encrypt the gadget multiples of the message", "statement": "The rows of a constant GGSW encryption of m decrypt to -m*2^(w-b*level)*s_i (mask rows) and m*2^(w-b*level) (body row) plus the drawn noise, for each level; trivial GGSW encryptions likewise without noise.", "quantifier": "every key, message, level, parameters, randomness; for the in-place trivial encryption also every previous content of the output", "why_tests_cant": "all keys; previous content", "anchors": ["concrete-core/src/commons/crypto/secret/glwe.rs: encrypt_constant_ggsw, encrypt_constant_ggsw_row", "concrete-core/src/commons/crypto/ggsw/standard.rs: fill_with_trivial_encryption"]}
{"id": "C27", "title": "External product multiplies the encrypted values up to an explicit error", "statement": "The external product of a GGSW encryption of m and a GLWE ciphertext c has phase m*phase(c) + m*(rounding of c) + sum digits*noise exactly; in particular with a noiseless GGSW and c representable it is exactly m*phase(c).", "quantifier": "every GGSW, GLWE, key, parameters, noise", "why_tests_cant": "all keys, ciphertexts, noises", "anchors": ["concrete-core/src/backends/ntt/private/crypto/ggsw/ntt.rs: external_product", "concrete-core/src/backends/fft/private/crypto/ggsw.rs: external_product"]}
{"id": "C28", "title": "CMUX selects between two ciphertexts", "statement": "cmux with a GGSW encryption of a bit returns a ciphertext with the phase of ct0 when the bit is 0 and of ct1 when it is 1, up to the external product error.", "quantifier": "every ciphertext pair, bit, key, parameters", "why_tests_cant": "all inputs", "anchors": ["concrete-core/src/backends/ntt/private/crypto/ggsw/ntt.rs: cmux", "concrete-core/src/backends/fft/private/crypto/ggsw.rs: cmux"]}
{"id": "C29", "title": "Modulus switching rounds to the nearest multiple of 1/2N", "statement": "pbs_modulus_switch maps x to the nearest integer to x*2N/2^w (ties up) in 0..2N, and the value 2N is equivalent to 0 for the rotation.", "quantifier": "every x, N = 2^k with 2N < 2^w, and every offset / lut count parameters", "why_tests_cant": "2^64 inputs", "anchors": ["concrete-core/src/backends/fft/private/crypto/bootstrap.rs: pbs_modulus_switch", "concrete-core/src/backends/ntt/private/crypto/bootstrap/ntt/mod.rs: pbs_modulus_switch"]}
{"id": "C30", "title": "Blind rotation rotates the accumulator by the (switched) phase", "statement": "Blind rotation of accumulator v with input (a, b) under a bootstrap key of s outputs a ciphertext of phase X^(-b' + sum a'_i s_i) * phase(v), up to n times the cmux error, where ' is the modulus switch.", "quantifier": "every input ciphertext, accumulator, binary key of any length", "why_tests_cant": "unbounded number of cmux steps, all keys", "anchors": ["concrete-core/src/backends/fft/private/crypto/bootstrap.rs: blind_rotate", "concrete-core/src/backends/ntt/private/crypto/bootstrap/ntt/mod.rs: blind_rotate"]}
{"id": "C31", "title": "Programmable bootstrap evaluates the lookup table", "statement": "bootstrap outputs an LWE ciphertext whose phase is the (negacyclically extended) accumulator coefficient at the switched phase of the input, up to n times the cmux error.", "quantifier": "every input, trivial or not accumulator, key", "why_tests_cant": "as C30", "anchors": ["concrete-core/src/backends/fft/private/crypto/bootstrap.rs: bootstrap", "concrete-core/src/backends/ntt/private/crypto/bootstrap/ntt/mod.rs: bootstrap"]}
{"id": "C32", "title": "Packing keyswitch puts LWE message i in coefficient i", "statement": "packing_keyswitch of LWE ciphertexts c_0..c_{m-1} (m <= N) outputs a GLWE ciphertext whose phase is sum_i phase(c_i) X^i up to the explicit keyswitch error.", "quantifier": "every ciphertexts, keys, m <= N, decomposition parameters, noise", "why_tests_cant": "all keys and ciphertexts", "anchors": ["concrete-core/src/commons/crypto/glwe/keyswitch.rs: LwePackingKeyswitchKey::packing_keyswitch"]}
{"id": "C33", "title": "Private functional keyswitch applies the secret linear function", "statement": "private_functional_keyswitch_ciphertext with a key made for the function x -> lambda*x and polynomial P outputs a GLWE ciphertext of phase lambda*P*phase(c) up to explicit error.", "quantifier": "every lambda, P, keys, ciphertext, parameters", "why_tests_cant": "all keys", "anchors": ["concrete-core/src/commons/crypto/glwe/keyswitch.rs: LwePrivateFunctionalPackingKeyswitchKey"]}
{"id": "C34", "title": "NTT round trip", "statement": "backward(forward(p)) = p for every polynomial with coefficients reduced modulo q.", "quantifier": "every polynomial, every power of two size, every root table satisfying the twiddle relations, in particular all 12 tables shipped", "why_tests_cant": "q^N polynomials", "anchors": ["concrete-core/src/backends/ntt/private/math/transform.rs: forward, backward", "concrete-core/src/backends/ntt/private/math/params/"]}
{"id": "C35", "title": "NTT turns negacyclic multiplication into pointwise multiplication", "statement": "backward(forward(p) .* forward(r)) is the negacyclic product of p and r modulo q.", "quantifier": "every pair of polynomials, sizes, tables as C34", "why_tests_cant": "q^(2N) pairs", "anchors": ["concrete-core/src/backends/ntt/private/math/transform.rs", "concrete-core/src/backends/ntt/private/math/polynomial.rs: update_with_multiply_accumulate"]}
{"id": "C36", "title": "The shipped NTT parameter tables are correct", "statement": "For each of the 12 shipped parameter sets the roots satisfy the twiddle relations (r_1^2 = -1, r_{2k}^2 = r_k, r_{2k+1}^2 = -r_k), the inverse roots are their inverses, n_inv*N = 1 and q is odd and < 2^w.", "quantifier": "every entry of the shipped tables", "why_tests_cant": "this is a finite table; included because C34/C35 rest on it", "anchors": ["concrete-core/src/backends/ntt/private/math/params/params_32_1024.rs", "concrete-core/src/backends/ntt/private/math/params/params_64_1024.rs"]}
{"id": "C37", "title": "Modular arithmetic of ModQ is arithmetic modulo q", "statement": "ModQ add, sub, neg, mul compute the corresponding operation modulo q on reduced representatives and results are reduced; no intermediate overflow.", "quantifier": "every q and all pairs of residues", "why_tests_cant": "q^2 pairs", "anchors": ["concrete-core/src/backends/ntt/private/math/mod_q.rs"]}
{"id": "C38", "title": "Modulus switch to q and back", "statement": "Switching from modulus 2^w to q and back changes a value by at most the rounding error and is the identity when q is large enough / the documented bound; small signed digits are lifted exactly.", "quantifier": "every value and modulus q in range", "why_tests_cant": "2^64 values", "anchors": ["concrete-core/src/backends/ntt/private/math/mod_q.rs: mod_switch_into, mod_switch_from"]}
{"id": "C39", "title": "LWE/GLWE secret key transformations are inverse", "statement": "Turning a GLWE secret key into an LWE secret key and back (same polynomial size) gives the original key, and conversely when the polynomial size divides the dimension.", "quantifier": "every key, k, N", "why_tests_cant": "all keys", "anchors": ["concrete-core/src/backends/default/implementation/engines/default_engine/lwe_to_glwe_secret_key_transformation.rs", "concrete-core/src/backends/default/implementation/engines/default_engine/glwe_to_lwe_secret_key_transformation.rs"]}
{"id": "C40", "title": "Checked engine functions report exactly the documented precondition violations and otherwise behave as the unchecked ones", "statement": "Each checked engine entry returns Ok iff the documented dimension preconditions hold, returns the error variant documented for the violated precondition, leaves the output untouched on error.", "quantifier": "every tuple of dimensions", "why_tests_cant": "all dimension tuples; error branches are mostly untested", "anchors": ["concrete-core/src/specification/engines/lwe_ciphertext_discarding_keyswitch.rs", "concrete-core/src/specification/engines/lwe_ciphertext_discarding_bootstrap.rs", "concrete-core/src/specification/engines/glwe_ciphertext_ggsw_ciphertext_discarding_external_product.rs", "concrete-core/src/specification/engines/lwe_ciphertext_vector_discarding_loading.rs"]}
{"id": "C41", "title": "Loading a sub-range of a ciphertext vector accepts every ordered in-bounds range", "statement": "Range loading accepts ranges (a, b) with a <= b < count and rejects the others.", "quantifier": "every range and vector length", "why_tests_cant": "all ranges", "anchors": ["concrete-core/src/specification/parameters.rs: LweCiphertextRange::is_ordered", "concrete-core/src/specification/engines/lwe_ciphertext_vector_loading.rs"]}
{"id": "C42", "title": "Serialization round trip and version rejection", "statement": "deserialize(serialize(x)) = x for every entity and an input carrying an unsupported version tag is rejected with UnsupportedVersion, a truncated one with an error.", "quantifier": "every entity value and every byte string prefix", "why_tests_cant": "all values", "anchors": ["concrete-core/src/backends/default/implementation/engines/default_serialization_engine/entity_serialization.rs", "concrete-core/src/backends/default/implementation/engines/default_serialization_engine/entity_deserialization.rs"]}
{"id": "C43", "title": "CMUX tree selects the lookup table entry", "statement": "cmux_tree_memory_optimized on 2^r LUT polynomials and r GGSW encryptions of bits outputs a ciphertext of the polynomial whose index has these bits (first GGSW = most significant), up to r times the cmux error.", "quantifier": "every r, LUTs, bits", "why_tests_cant": "2^r leaves, unbounded r; the streaming algorithm keeps a carry counter", "anchors": ["concrete-core/src/backends/fft/private/crypto/wop_pbs/mod.rs: cmux_tree_memory_optimized"]}
{"id": "C44", "title": "Vertical packing evaluates a large lookup table", "statement": "vertical_packing outputs an LWE ciphertext of phase lut[index], where the index is spelled by the bits in the GGSW list, up to the cmux errors.", "quantifier": "every LUT of 2^r polynomials, all bits", "why_tests_cant": "as C43", "anchors": ["concrete-core/src/backends/fft/private/crypto/wop_pbs/mod.rs: vertical_packing, blind_rotate"]}
{"id": "C45", "title": "Bit extraction outputs the bits of the message", "statement": "extract_bits on an encryption of m*2^delta outputs LWE encryptions of the bits of m (most significant first) at the top bit position, given a correct bootstrap and keyswitch.", "quantifier": "every message, number of bits, delta, and every noise within the stated bounds", "why_tests_cant": "unbounded loop with carried state", "anchors": ["concrete-core/src/backends/fft/private/crypto/wop_pbs/mod.rs: extract_bits"]}
{"id": "C46", "title": "Circuit bootstrap outputs a GGSW encryption of the bit", "statement": "circuit_bootstrap_boolean turns an LWE encryption of a bit into a GGSW ciphertext whose rows have the phases of a GGSW encryption of this bit, up to the bootstrap and private keyswitch errors.", "quantifier": "every input, level, parameters", "why_tests_cant": "all keys", "anchors": ["concrete-core/src/backends/fft/private/crypto/wop_pbs/mod.rs: circuit_bootstrap_boolean, homomorphic_shift_boolean"]}
{"id": "C47", "title": "Public key encryption decrypts to the message plus the sum of the chosen zero encryptions' noise", "statement": "decrypt(key, public_encrypt(pk, m)) = m + sum of noises of the selected zero encryptions.", "quantifier": "every selection, pk of any size, message", "why_tests_cant": "2^n selections", "anchors": ["concrete-core/src/backends/default/implementation/engines/default_engine/lwe_ciphertext_discarding_public_key_encryption.rs", "concrete-core/src/backends/default/implementation/engines/default_engine/lwe_public_key_generation.rs"]}
{"id": "C48", "title": "Discarding vector operations act elementwise on every element", "statement": "The discarding/fusing vector operations of the default engine (discarding add and sub, fusing add and sub, plaintext vector addition, cleartext vector multiplication) return Ok exactly when the dimensions and counts agree, return the documented error otherwise, and on Ok set every output element to the operation of the corresponding inputs.", "quantifier": "every vector length and content", "why_tests_cant": "all lengths; some count checks are missing", "anchors": ["concrete-core/src/backends/default/implementation/engines/default_engine/lwe_ciphertext_vector_discarding_addition.rs", "concrete-core/src/backends/default/implementation/engines/default_engine/lwe_ciphertext_vector_discarding_subtraction.rs", "concrete-core/src/backends/default/implementation/engines/default_engine/lwe_ciphertext_vector_fusing_addition.rs", "concrete-core/src/backends/default/implementation/engines/default_engine/lwe_ciphertext_vector_fusing_subtraction.rs", "concrete-core/src/backends/default/implementation/engines/default_engine/lwe_ciphertext_vector_plaintext_vector_discarding_addition.rs", "concrete-core/src/backends/default/implementation/engines/default_engine/lwe_ciphertext_vector_cleartext_vector_discarding_multiplication.rs"]}
{"id": "C49", "title": "Reading and writing elements of a flat list behave like array access", "statement": "For a polynomial list, reading element i after any history of writes of whole elements returns the last polynomial written at i, or the initial content if there was none; other elements are untouched; an index outside the list or a polynomial of another size panics; element i of the iterator is element i. The checks of the single-ciphertext load/store engines accept exactly the indices inside the vector with equal dimensions.", "quantifier": "every list, element size, index, history of writes", "why_tests_cant": "all histories", "anchors": ["concrete-core/src/commons/math/polynomial/list.rs: get_polynomial, get_mut_polynomial, polynomial_iter", "concrete-core/src/specification/engines/lwe_ciphertext_discarding_loading.rs", "concrete-core/src/specification/engines/lwe_ciphertext_discarding_storing.rs", "concrete-core/src/specification/engines/lwe_ciphertext_loading.rs"]}
{"id": "C50", "title": "Fork failures of the encryption generator leave mask and noise streams in step", "statement": "If forking an encryption generator fails, neither the mask nor the noise stream has advanced.", "quantifier": "every generator pair state and counts", "why_tests_cant": "error states near exhaustion are not reachable by tests", "anchors": ["concrete-core/src/commons/crypto/secret/generators/encryption.rs: try_fork"]}
{"id": "C51", "title": "Circuit bootstrap followed by vertical packing evaluates lookup tables on encrypted bits", "statement": "circuit_bootstrap_boolean_vertical_packing on LWE encryptions of bits and a list of nout tables of 2^r polynomials outputs, for each table, an LWE ciphertext of the entry whose index is spelled by the bits (first input is the most significant bit), up to an error bounded by the parameters and the noises of the keys.", "quantifier": "every number of inputs and outputs, all bits, tables, keys and noises within the stated bounds", "why_tests_cant": "composes four noisy operations over lists of unbounded length; the error must be bounded for all keys and ciphertexts", "anchors": ["concrete-core/src/backends/fft/private/crypto/wop_pbs/mod.rs: circuit_bootstrap_boolean_vertical_packing, circuit_bootstrap_boolean, vertical_packing"]}
{"id": "C52", "title": "GSW ciphertexts: encryption, external product and cmux", "statement": "A GSW encryption of m is a matrix whose rows decrypt to m times the gadget times the key elements (up to the drawn noises), identically for the sequential and parallel versions (release builds accept every message; builds with overflow checks accept exactly the messages below the decomposition base); the external product of a GSW encryption of m with an LWE ciphertext adds m times its phase to the output up to a bound on the decomposition and noise errors; cmux with an encrypted bit selects one of two LWE ciphertexts.", "quantifier": "every key, message, dimension, valid base and level count, generator state, schedule, LWE inputs and outputs, build profile", "why_tests_cant": "the error bound must hold for all keys, masks and noises; parallel schedules are not enumerable; the overflow panic depends on the message and on the build profile", "anchors": ["concrete-core/src/commons/crypto/secret/lwe.rs: encrypt_constant_gsw, par_encrypt_constant_gsw, trivial_encrypt_constant_gsw", "concrete-core/src/commons/crypto/gsw/ciphertext.rs: external_product, cmux"]}
{"id": "C53", "title": "The generators of all platforms output the AES-128 stream of the seed", "statement": "For every seed and counter, the batch of 128 bytes produced by the AES-NI, the aarch64 and the software block cipher is the concatenation of the AES-128 (FIPS 197) encryptions of the eight consecutive counters under the seed, so the same seed gives the same random stream (hence the same keys, masks and noises) on every platform. The hardware versions refuse to start on a CPU without the needed instructions.", "quantifier": "every 128-bit seed, every counter, both build profiles", "why_tests_cant": "2^128 keys and counters; the existing tests use one FIPS vector per platform and no machine can run all three implementations", "anchors": ["concrete-csprng/src/generators/implem/aesni/block_cipher.rs: aes_128_key_expansion, aes_encrypt_many, generate_batch", "concrete-csprng/src/generators/implem/aarch64/block_cipher.rs: generate_round_keys, encrypt", "concrete-csprng/src/generators/implem/soft/block_cipher.rs: aes_encrypt_many"]}
{"id": "C54", "title": "Float encoders: decoding an encoded message gives it back", "statement": "An encoder created for the range [min, max] with a precision and a padding accepts every message of the range, and decoding the plaintext obtained by encoding the message returns the message up to the resolution of the plaintext (the length of the encoded interval divided by 2^(width - padding)) and a relative floating point error; the same holds when the plaintext is perturbed by noise staying below half a granule, without wrap-around from one end of the range to the other. No message outside of the range is accepted.", "quantifier": "every finite f64 range, precision, padding, message, noise value, scalar width (u32, u64) and build profile", "why_tests_cant": "2^64 messages per encoder, every range and precision; the wrap-around occurs only at the ends of the interval and depends on floating point rounding", "anchors": ["concrete-core/src/commons/crypto/encoding/encoder.rs: FloatEncoder::encode, decode, is_message_out_of_range", "concrete-core/src/backends/default/implementation/engines/default_engine/cleartext_encoding.rs", "concrete-core/src/backends/default/implementation/engines/default_engine/plaintext_decoding.rs"]}
{"id": "C55", "title": "Torus conversions return the closest representable element", "statement": "Converting a floating point number to a discretized torus element gives the closest w-bit representation of its fractional part; converting a torus element to f64 and back returns the same element when its width fits in the significand, and an element at most 2^(w-54) units away otherwise.", "quantifier": "every finite f64 (all exponents, subnormals included), every torus element, every width up to 128", "why_tests_cant": "2^64 floats; the wrong results lie in a window of relative width 2^-w below one half", "anchors": ["concrete-core/src/commons/math/torus/mod.rs: IntoTorus::into_torus, FromTorus::from_torus"]}
{"id": "C56", "title": "Encoder engines report invalid configurations and messages as errors", "statement": "Creating an encoder returns an error exactly when the bounds are not increasing (or the radius is not positive) or the precision is null, and an encoder with the requested parameters otherwise; encoding reports exactly the messages outside of the interval; vector versions report length mismatches, then the errors of the components, and otherwise treat every component with its own configuration or encoder. No call of a checked function panics.", "quantifier": "every f64 (infinities and NaN included), precision, padding, vector length, build profile", "why_tests_cant": "error paths depend on floating point comparisons (NaN, rounding of center +- radius) and on combinations of parameters with the scalar width", "anchors": ["concrete-core/src/backends/default/implementation/entities/encoder.rs: to_commons", "concrete-core/src/backends/default/implementation/engines/default_engine/encoder_creation.rs", "concrete-core/src/backends/default/implementation/engines/default_engine/encoder_vector_creation.rs", "concrete-core/src/backends/default/implementation/engines/default_engine/cleartext_vector_encoding.rs", "concrete-core/src/backends/default/implementation/engines/default_engine/plaintext_vector_decoding.rs"]}
{"id": "C57", "title": "Entities report their dimensions and iterate over the right parts of their container", "statement": "An entity allocated with given dimensions, or made from a container of consistent length, reports these dimensions; its iterators (shared, mutable, parallel) return in order the consecutive parts of the container, none missing and none overlapping; nested iterators reach the coefficient at the documented position (for a bootstrapping key, coefficient k of polynomial c of row r of level l+1 of GGSW i is at (((i*levels+l)*G+r)*G+c)*N+k); writing through a mutable iterator changes the named part only.", "quantifier": "every entity kind, dimensions, container content, index, update function and build profile, as long as the sizes fit in usize", "why_tests_cant": "the layout must be right for every combination of dimensions and every index; tests use a few shapes, often with equal dimensions that hide swapped factors", "anchors": ["concrete-core/src/commons/crypto/lwe/list.rs LweList", "concrete-core/src/commons/crypto/lwe/keyswitch.rs LweKeyswitchKey", "concrete-core/src/commons/crypto/glwe/ciphertext.rs GlweCiphertext", "concrete-core/src/commons/crypto/glwe/list.rs GlweList", "concrete-core/src/commons/crypto/glwe/keyswitch.rs LwePackingKeyswitchKey", "concrete-core/src/commons/crypto/ggsw/standard.rs StandardGgswCiphertext", "concrete-core/src/commons/crypto/bootstrap/standard/mod.rs StandardBootstrapKey"]}
{"id": "C58", "title": "Creating an entity from a container and retrieving it are inverse, and invalid containers are reported", "statement": "A checked creation engine returns an error for a container whose length does not fit the requested dimensions; otherwise the created entity reports the requested dimensions and the number of elements, its elements are the consecutive parts of the container, and retrieving it returns the container.", "quantifier": "every container, dimensions and build profile", "why_tests_cant": "the lengths and dimensions are chosen by the caller; tests create entities from containers of the right length", "anchors": ["concrete-core/src/backends/default/implementation/engines/default_engine/lwe_ciphertext_vector_creation.rs", "concrete-core/src/backends/default/implementation/engines/default_engine/glwe_ciphertext_creation.rs", "concrete-core/src/backends/default/implementation/engines/default_engine/lwe_keyswitch_key_creation.rs", "concrete-core/src/backends/default/implementation/engines/default_engine/lwe_bootstrap_key_creation.rs"]}
{"id": "C59", "title": "What an engine publishes is its streams, read once", "statement": "Over any sequence of calls of an engine, the masks of all the ciphertexts and keys it outputs, in order, are exactly the bytes of its mask generator between the initial and the final position; the compression seeds of the seeded entities are every second word of its seeder, and the words between them seed the noise of these entities; the bits of a secret key are the low bits of the next bytes of the secret generator.", "quantifier": "every history of calls (32 and 64 bits mixed, failing calls included), all arguments, generators, schedules of the parallel calls and build profiles", "why_tests_cant": "reuse of randomness depends on the whole history; tests run a single call with a fresh engine and cannot see two masks overlapping", "anchors": ["concrete-core/src/backends/default/implementation/engines/default_engine: all encryption and key generation engines", "concrete-core/src/backends/default/implementation/engines/default_parallel_engine", "concrete-core/src/commons/crypto/secret/generators/encryption.rs", "concrete-core/src/commons/crypto/secret/generators/seeder.rs"]}
{"id": "C60", "title": "No byte of a generator contributes to two results of an engine", "statement": "Each call of an engine uses an interval of each of its generators; the intervals of different calls are disjoint and in order, the result of a call does not depend on any byte outside of its intervals, and a call that returns an error uses nothing and leaves the engine unchanged.", "quantifier": "every history of calls, pair of calls, arguments, generator contents, schedules and build profiles", "why_tests_cant": "it is a statement about all pairs of calls of all histories and about all the bytes that are not read", "anchors": ["concrete-core/src/backends/default/implementation/engines/default_engine: all encryption and key generation engines", "concrete-core/src/backends/default/implementation/engines/default_parallel_engine", "concrete-core/src/commons/math/random/generator.rs"]}
{"id": "C61", "title": "Engines derive their generators from distinct seeds", "statement": "A default or parallel engine is always created; its secret, mask and noise generators and all the seeds it uses later are derived from different words of the stream of its root seed. Engines created from the same root seed do not use the same stream for a secret key and for public masks.", "quantifier": "every root seed, generator, kind of engine and history", "why_tests_cant": "the streams are pseudo random: equality of a public and a secret stream goes unnoticed in any functional test", "anchors": ["concrete-core/src/backends/default/implementation/engines/default_engine/mod.rs: DefaultEngine::new", "concrete-core/src/backends/default/implementation/engines/default_parallel_engine/mod.rs: DefaultParallelEngine::new", "concrete-core/src/commons/crypto/secret/generators/encryption.rs: EncryptionRandomGenerator::new"]}
{"id": "C62", "title": "Programs of engine calls compute the same program on messages", "statement": "A server that holds a keyswitching key and a bootstrapping key runs any sequence of additions, subtractions, opposites, products by cleartexts, plaintext additions and subtractions, trivial encryptions and table lookups (a keyswitch followed by a programmable bootstrap) on any number of ciphertexts. If the inputs encrypt messages with bounded noise and the noise bounds computed along the program stay below half a step at each lookup, no call fails, and the ciphertexts decrypt and decode to the results of the same program on integers modulo the number of messages.", "quantifier": "every program, number of registers, messages, tables, binary keys, key generation schedules, generator contents, noise values within the bounds, parameters, and FFT or NTT transforms", "why_tests_cant": "tests run single operations or fixed circuits; the claim is about every composition, with worst case noise", "anchors": ["concrete-core/src/backends/default/implementation/engines/default_engine: lwe_ciphertext_* engines", "concrete-core/src/commons/crypto/lwe/keyswitch.rs", "concrete-core/src/backends/fft/private/crypto/bootstrap.rs", "concrete-core/src/backends/ntt/private/crypto/bootstrap/ntt/mod.rs"]}
{"id": "C63", "title": "Floating point polynomial products stay within an explicit error", "statement": "The Fourier transform used by external products and bootstraps multiplies polynomials in double precision. Adding a sum of at most M products, whose second factors have coefficients of at most D, to a polynomial of size N changes each coefficient by the exact negacyclic sum of products with an error of at most 2^w * 16 (eps + (M+1)/2^48) M D N + 3 units in the last place, where eps is the relative accuracy of the complex transform of size N/2, on every processor. Consequently a bootstrap returns the table value at the switched phase within the bounds of the noise of its key and of this error.", "quantifier": "every polynomial, number of products, size that is a multiple of 16, 32 and 64 bits, set of instructions of the processor, accurate transform and sine", "why_tests_cant": "rounding errors depend on the coefficients; tests sample random ones on one processor", "anchors": ["concrete-core/src/backends/fft/private/math/fft/mod.rs", "concrete-core/src/backends/fft/private/math/fft/x86.rs", "concrete-core/src/backends/fft/private/crypto/ggsw.rs: update_with_fmadd"]}
{"id": "C64", "title": "Vectorised conversions agree with the portable ones for all values", "statement": "On every processor the conversions of integers to floats are correctly rounded, the conversion of a float to an integer truncates, a float is converted to a torus element within 3/2 units of its exact value, and all the coefficients of the polynomial are converted.", "quantifier": "every 64-bit integer, every finite float, every length, every set of instructions of the processor", "why_tests_cant": "2^64 bit patterns, including subnormal numbers and values around powers of two and one half; tests sample a few on one processor", "anchors": ["concrete-core/src/backends/fft/private/math/fft/x86.rs: mm256_cvtpd_epi64, mm512_cvtpd_epi64, mm256_cvtepi64_pd, convert_forward_integer_*, convert_add_backward_torus_*", "concrete-core/src/backends/fft/private/math/fft/mod.rs: convert_forward_integer, convert_add_backward_torus"]}
{"id": "C65", "title": "Concurrent creation of Fourier transforms is safe and shares one plan per size", "statement": "Any number of threads may create Fourier transforms at the same time. All those of one size share the same plan, which is built successfully at most once. No interleaving deadlocks or runs for ever, the internal lookup never panics, and a panic while building a plan is seen by exactly one caller: callers waiting for it try again.", "quantifier": "every number of threads, every list of sizes, every interleaving, every outcome of building a plan", "why_tests_cant": "the number of interleavings is exponential and the schedule is not under the control of a test; failures of the builder are rare", "anchors": ["concrete-core/src/backends/fft/private/math/fft/mod.rs: plans, Fft::new"]}
{"id": "C66", "title": "The scratch memory reserved by a Fourier engine call is always sufficient", "statement": "Before each Fourier operation (conversions, external product, CMUX, bootstrap, bit extraction, circuit bootstrap, vertical packing) the engine reserves scratch memory. For arguments accepted by its checks the operation never needs more than what was reserved, wherever the memory lies; likewise a caller who provides a stack that can hold the announced requirement never sees the operation run out of it.", "quantifier": "all shapes of keys and ciphertexts, all addresses of the memory, all contents of masks, all requirements of the transform plan, both scalar widths, both build profiles", "why_tests_cant": "whether alignment padding suffices depends on the address returned by the allocator, on the plan chosen at run time and on all parameters; a test sees one of each", "anchors": ["concrete-core/src/backends/fft/private/crypto/ggsw.rs: external_product_scratch, external_product, cmux_scratch", "concrete-core/src/backends/fft/private/crypto/bootstrap.rs: bootstrap_scratch, bootstrap", "concrete-core/src/backends/fft/private/crypto/wop_pbs/mod.rs: *_scratch", "concrete-core/src/backends/fft/implementation/engines/fft_engine/mod.rs: FftEngine::resize, FftEngine::stack"]}
{"id": "C67", "title": "Keys generated for a circuit bootstrap are accepted by it", "statement": "The private functional packing keyswitch keys generated from the output key of the bootstrap key and a GLWE key are accepted by the checked circuit bootstrap into any GGSW ciphertext under that GLWE key, which then performs the circuit bootstrap without panicking.", "quantifier": "all dimensions, polynomial sizes and numbers of levels, all keys and ciphertexts, both build profiles", "why_tests_cant": "the shipped examples use a single level; the claim is about every number of levels", "anchors": ["concrete-core/src/specification/engines/lwe_ciphertext_vector_discarding_circuit_bootstrap_boolean.rs: perform_generic_checks", "concrete-core/src/backends/default/implementation/engines/default_engine/lwe_circuit_bootstrap_private_functional_packing_keyswitch_keys_generation.rs", "concrete-core/src/backends/fft/private/crypto/wop_pbs/mod.rs: circuit_bootstrap_boolean"]}
{"id": "C68", "title": "The C functions compute on memory what they announce, and write nothing else", "statement": "Each function of the C library concrete-cpu (addition, addition of a plaintext, product by a cleartext, negation, keyswitch, conversion of a bootstrap key, bootstrap, extraction of bits, vertical packing), called with pointers to ranges of the sizes it announces, the output range being apart from the inputs, returns, leaves in the output range a ciphertext of the announced result, changes no other word of memory, and never needs more stack than its scratch function announces.", "quantifier": "all memory contents, all pointers, all dimensions and parameters, all keys and messages, both build profiles", "why_tests_cant": "a buffer overrun or a wrong length only shows for some layouts of memory and some dimensions; the claim is about every layout and every dimension", "anchors": ["concrete-cpu/src/linear_op.rs", "concrete-cpu/src/keyswitch.rs: concrete_cpu_keyswitch_lwe_ciphertext_u64", "concrete-cpu/src/bootstrap/mod.rs: concrete_cpu_bootstrap_key_convert_u64_to_fourier, concrete_cpu_bootstrap_lwe_ciphertext_u64", "concrete-cpu/src/wop_pbs.rs: concrete_cpu_extract_bit_lwe_ciphertext_u64, concrete_cpu_circuit_bootstrap_boolean_vertical_packing_lwe_ciphertext_u64"]}
{"id": "C69", "title": "Data sent to the GPUs comes back unchanged", "statement": "Converting a vector of LWE ciphertexts, plaintexts or cleartexts (or a GLWE ciphertext vector or a keyswitch key) to the GPUs and back returns the same data, for every number of GPUs and every length; the conversion never accesses memory outside of the allocations; and when the check of the free memory passes, every GPU has room for what it receives.", "quantifier": "all numbers of GPUs, all numbers of elements, all element sizes, all contents, all amounts of free memory", "why_tests_cant": "the split depends on the remainder of the length by the number of GPUs; tests run on the GPUs of one machine and on a few lengths", "anchors": ["concrete-core/src/backends/cuda/private/mod.rs: number_of_active_gpus, compute_number_of_samples_on_gpu", "concrete-core/src/backends/cuda/private/crypto/lwe/list.rs: copy_lwe_ciphertext_vector_from_cpu_to_gpu, copy_lwe_ciphertext_vector_from_gpu_to_cpu", "concrete-core/src/backends/cuda/private/device.rs: malloc, copy_to_gpu, copy_to_cpu", "concrete-core/src/backends/cuda/implementation/engines/cuda_engine/lwe_ciphertext_vector_conversion.rs"]}
{"id": "C70", "title": "Linear operations on the GPUs equal the ones on the CPU, for every schedule of threads", "statement": "The opposite, the addition, the addition of plaintexts and the multiplication by cleartexts of vectors of LWE ciphertexts on the GPUs leave in the output, for every ciphertext, the same result as on the CPU (the phase is negated, added, translated, multiplied), for every number of GPUs and every order in which the threads run, without access outside of the allocations.", "quantifier": "all numbers of GPUs and ciphertexts, all dimensions, all contents, all orders of the threads on every GPU", "why_tests_cant": "the scheduler of a GPU cannot be controlled by a test; grid sizes and splits depend on the number of words and GPUs", "anchors": ["concrete-core/src/backends/cuda/private/crypto/lwe/list.rs: execute_lwe_ciphertext_vector_opposite_on_gpu, execute_lwe_ciphertext_vector_addition_on_gpu, execute_lwe_ciphertext_vector_plaintext_vector_addition_on_gpu, execute_lwe_ciphertext_vector_cleartext_vector_multiplication_on_gpu", "concrete-cuda/cuda/src/addition.cuh, negation.cuh, multiplication.cuh", "concrete-cuda/cuda/src/utils/kernel_dimensions.cuh: getNumBlocksAndThreads"]}
{"id": "C71", "title": "The keyswitch on the GPUs equals the one on the CPU, for every interleaving of the threads", "statement": "Keyswitching a vector of LWE ciphertexts on the GPUs gives, for every ciphertext, exactly the result of the CPU keyswitch (hence the error bound of C16), for every number of GPUs and every interleaving of the threads that the barriers allow; the threads never deadlock, always finish, and never access memory outside of the allocations.", "quantifier": "all numbers of GPUs and ciphertexts, all dimensions, valid decomposition parameters, keys and contents, all interleavings of the memory accesses of the 128 threads of every block", "why_tests_cant": "a data race shows only on some schedules, which a test cannot choose; on a given GPU the warps usually run in the harmless order", "anchors": ["concrete-cuda/cuda/src/keyswitch.cuh: keyswitch, cuda_keyswitch_lwe_ciphertext_vector", "concrete-cuda/cuda/src/crypto/gadget.cuh: decompose_one", "concrete-cuda/cuda/src/crypto/torus.cuh: round_to_closest_multiple", "concrete-core/src/backends/cuda/private/crypto/keyswitch/mod.rs: execute_lwe_ciphertext_vector_keyswitch_on_gpu", "concrete-core/src/backends/cuda/implementation/engines/cuda_engine/lwe_ciphertext_vector_discarding_keyswitch.rs: discard_keyswitch_lwe_ciphertext_vector"]}
{"id": "C72", "title": "The private functional packing keyswitch on the GPUs equals the one on the CPU", "statement": "Packing a vector of LWE ciphertexts into a GLWE ciphertext on the GPUs gives exactly the result of the CPU (hence the phase and error bound of C33), whatever the previous content of the output, for every number of GPUs and every order of execution of the threads, without access outside of the allocations.", "quantifier": "all numbers of GPUs and ciphertexts, all dimensions and polynomial sizes, valid decomposition parameters, keys and contents, all orders of the threads", "why_tests_cant": "the fixtures use one ciphertext and sizes that are multiples of 256; the write out of the allocation is silent and depends on the neighbouring memory", "anchors": ["concrete-cuda/cuda/src/keyswitch.cuh: fp_keyswitch, cuda_fp_keyswitch_lwe_to_glwe", "concrete-core/src/backends/cuda/private/crypto/keyswitch/mod.rs: execute_lwe_ciphertext_vector_fp_keyswitch_on_gpu", "concrete-core/src/backends/cuda/private/crypto/glwe/ciphertext.rs: CudaGlweCiphertext", "concrete-core/src/backends/cuda/implementation/engines/cuda_engine/lwe_ciphertext_vector_glwe_ciphertext_discarding_private_functional_packing_keyswitch.rs: discard_private_functional_packing_keyswitch_lwe_ciphertext_vector"]}
{"id": "C73", "title": "Through the C interface, the caller knows exactly which objects are alive", "statement": "Whatever the sequence of calls of the checked C functions respecting the documentation (null or misaligned pointers being allowed), the objects that the caller owns according to the return codes and to the pointers set to null are exactly those alive in the library: none is leaked, freed twice or left dangling, each can be destroyed by one call, and no call has undefined behaviour.", "quantifier": "all histories of calls of the 101 checked functions, all arguments, all outcomes of the engines, all allocators and alignments, all contents of the variables of the caller", "why_tests_cant": "the C tests run a few success paths; the errors appear after failures of the engines in the middle of a history and are silent without a sanitizer", "anchors": ["concrete-core-ffi/src/lib.rs: documentation of checked functions and memory management", "concrete-core-ffi/src/utils.rs: catch_panic, get_mut_checked", "concrete-core-ffi/src/buffer.rs: Buffer, destroy_buffer", "concrete-core-ffi/src/backends/default/engines/lwe_glwe_secret_key_transformation.rs: default_engine_transform_lwe_secret_key_to_glwe_secret_key_u64", "concrete-core-ffi/src: all extern functions"]}
{"id": "C74", "title": "Return codes and pointer checks of the C interface", "statement": "A checked C function given a null or misaligned pointer returns 1 and changes nothing but result pointers, which become null; if nothing is wrong it returns 0; when it returns 0 its results are new valid objects of the announced type, when it returns 1 they are null. On calls where nothing is wrong the unchecked version does the same.", "quantifier": "all 101 pairs of functions, all arguments, all outcomes of the engines, all states of the heap and of the caller's memory", "why_tests_cant": "the combinations of bad arguments for 202 functions are not tested, and a missing check only shows as undefined behaviour", "anchors": ["concrete-core-ffi/src/utils.rs: check_ptr_is_non_null_and_aligned", "concrete-core-ffi/src/lib.rs: documentation of checked and unchecked functions", "concrete-core-ffi/src/backends/default/engines/entity_deserialization.rs: default_serialization_engine_deserialize_lwe_secret_key_u64", "concrete-core-ffi/src: all extern functions"]}
{"id": "C75", "title": "Memory of the CUDA bootstraps", "statement": "While a CUDA bootstrap runs, all arrays of all its blocks lie inside the memory allocated for them, start at aligned addresses and share no byte with each other, whatever the amount of shared memory of the device.", "quantifier": "both word sizes, all supported polynomial sizes, all GLWE dimensions, level counts and numbers of ciphertexts whose buffers have less than 2^32 elements, all shared memory sizes", "why_tests_cant": "the layout depends on the device and on the parameters; an overlap corrupts data silently and depends on timing", "anchors": ["concrete-cuda/cuda/src/bootstrap_amortized.cuh: get_buffer_size_bootstrap_amortized, device_bootstrap_amortized, host_bootstrap_amortized", "concrete-cuda/cuda/src/bootstrap_low_latency.cuh: get_buffer_size_bootstrap_low_latency, device_bootstrap_low_latency, host_bootstrap_low_latency, mul_ggsw_glwe"]}
{"id": "C76", "title": "The CUDA low latency bootstrap gives the same result on every schedule of the GPU", "statement": "However the GPU schedules the blocks of the low latency bootstrap, they all reach the end and the accumulators are those of the blind rotation: in every iteration, the external product summed over all polynomials and all levels of the same iteration.", "quantifier": "all schedules of the blocks, all LWE and GLWE dimensions, level counts and numbers of ciphertexts, all arithmetic of the blocks, all initial contents of the join buffers", "why_tests_cant": "the order in which blocks run is chosen by the GPU; a test sees a few of the orders", "anchors": ["concrete-cuda/cuda/src/bootstrap_low_latency.cuh: mul_ggsw_glwe, device_bootstrap_low_latency"]}
{"id": "C77", "title": "The CUDA bootstrap of a vector applies the i-th lookup table to the i-th ciphertext", "statement": "Bootstrapping a vector of ciphertexts with CUDA, in low latency or amortized mode, gives as i-th ciphertext the bootstrap of the i-th input with the i-th lookup table, whatever the number of GPUs and whatever the device memory held before.", "quantifier": "all numbers of ciphertexts and GPUs, all sizes, all contents of inputs, tables and unwritten device memory, all orders of the threads", "why_tests_cant": "unwritten memory often holds zeros and tests use one lookup table for all ciphertexts, on one GPU", "anchors": ["concrete-core/src/backends/cuda/private/crypto/bootstrap/mod.rs: execute_lwe_ciphertext_vector_low_latency_bootstrap_on_gpu, execute_lwe_ciphertext_vector_amortized_bootstrap_on_gpu", "concrete-core/src/backends/cuda/implementation/engines/cuda_engine/lwe_ciphertext_discarding_bootstrap.rs", "concrete-core/src/specification/engines/lwe_ciphertext_vector_discarding_bootstrap.rs: LweCiphertextVectorDiscardingBootstrapEngine", "concrete-cuda/cuda/src/bootstrap_amortized.cuh: device_bootstrap_amortized", "concrete-cuda/cuda/src/bootstrap_low_latency.cuh: device_bootstrap_low_latency"]}
{"id": "C78", "title": "The CUDA bootstraps rotate by the nearest exponent, like the CPU", "statement": "In the CUDA bootstraps, each word x of the input ciphertext rotates the accumulator by the nearest integer to x 2N / 2^w, the same exponent as on the CPU.", "quantifier": "all words of 32 or 64 bits, all polynomial sizes that are powers of two", "why_tests_cant": "the words for which the double rounding matters are a tiny fraction of the 2^64 words", "anchors": ["concrete-cuda/cuda/src/crypto/torus.cuh: rescale_torus_element", "concrete-cuda/cuda/src/bootstrap_amortized.cuh: device_bootstrap_amortized", "concrete-cuda/cuda/src/bootstrap_low_latency.cuh: device_bootstrap_low_latency"]}
{"id": "C79", "title": "The threads of a CUDA block compute the polynomials of the CPU, however they interleave", "statement": "In the CUDA bootstraps, the division of the lookup table by a monomial, the rotation of the accumulator minus the accumulator, the digits that are prepared for the Fourier transform, and the extraction of the output ciphertext are those of the CPU functions, for every interleaving of the memory accesses of the threads of the block; the threads never block each other.", "quantifier": "all numbers of threads and of coefficients per thread, all memory contents, all exponents up to 2N, all interleavings", "why_tests_cant": "a race shows only under some interleavings, which a test does not choose", "anchors": ["concrete-cuda/cuda/src/polynomial/functions.cuh: divide_by_monomial_negacyclic_inplace, multiply_by_monomial_negacyclic_and_sub_polynomial, round_to_closest_multiple_inplace, sample_extract_mask, sample_extract_body", "concrete-cuda/cuda/src/crypto/gadget.cuh: GadgetMatrix", "concrete-cuda/cuda/src/bootstrap_low_latency.cuh: device_bootstrap_low_latency"]}
{"id": "C80", "title": "The amortized bootstrap of CUDA evaluates the lookup table", "statement": "The amortized bootstrap of CUDA returns an encryption, under the extracted key, of the value of the lookup table at the phase of the input, up to the rounding of the phase to 2N values and the error of the CMUXes; for 32-bit words it returns bit by bit what the CPU bootstrap with the same Fourier transform returns, if no mask element is zero.", "quantifier": "all inputs, keys, tables, polynomial sizes, GLWE dimensions, decomposition bases and levels, transforms of bounded error", "why_tests_cant": "the error depends on all keys, inputs and parameters", "anchors": ["concrete-cuda/cuda/src/bootstrap_amortized.cuh: device_bootstrap_amortized", "concrete-cuda/cuda/src/crypto/gadget.cuh: GadgetMatrix", "concrete-cuda/cuda/src/crypto/bootstrapping_key.cuh: get_ith_mask_kth_block, get_ith_body_kth_block"]}
{"id": "C81", "title": "The low latency bootstrap of CUDA evaluates the lookup table for every schedule of its blocks", "statement": "The low latency bootstrap of CUDA leaves, for each input ciphertext, accumulators whose extraction is an encryption of the value of the lookup table at the phase of the input, up to the rounding of the phase and the error of the CMUXes, however the blocks of the grid are scheduled.", "quantifier": "all schedules of the blocks, numbers of ciphertexts, inputs, keys, tables, parameters, transforms of bounded error", "why_tests_cant": "the schedule of the blocks is not under the control of a test", "anchors": ["concrete-cuda/cuda/src/bootstrap_low_latency.cuh: device_bootstrap_low_latency, mul_ggsw_glwe", "concrete-cuda/cuda/src/crypto/gadget.cuh: GadgetMatrix"]}
{"id": "C82", "title": "The Fourier transform of the GPU computes negacyclic products", "statement": "For every interleaving of the threads of a block, the direct and inverse transforms of the GPU replace the elements of the array by one function of them. On exact numbers the direct transform gives the values of the packed polynomial at the n solutions of x^n = i, the inverse undoes it, and products of the values give negacyclic products of the polynomials. Every entry of the table of constants that the transforms read is the root that is needed up to 4e-16.", "quantifier": "all interleavings, numbers of threads, powers of two as sizes, inputs; all entries of the table", "why_tests_cant": "a missing barrier is seen only for some interleavings; a wrong constant of the table has an effect of the size of the error of rounding", "anchors": ["concrete-cuda/cuda/src/fft/bnsmfft.cuh: NSMFFT_direct, NSMFFT_inverse", "concrete-cuda/cuda/src/fft/twiddles.cu: negtwiddles"]}
{"id": "C83", "title": "The Fourier transform of the GPU is accurate in double precision", "statement": "In double precision, and however the compiler fuses products and sums, the GPU adds to each coefficient of the output the sum of the negacyclic products of polynomials of the key and of digits up to an explicit number of units in the last place, 2^w (10 kappa M D N + 2^-50) + 4 with kappa = 2^-44 + (M+1) 2^-48 for M products of polynomials of N coefficients and digits of at most D, and M D N more on 32-bit words. Hence the two bootstraps of the GPU return a ciphertext of the element of the lookup table at the phase of the input, up to an explicit error.", "quantifier": "all polynomials, all sizes up to 8192, 32- and 64-bit words, all numbers of products and orders of the additions, all choices of fused operations", "why_tests_cant": "the error depends on the values; a random test sees typical errors, not the largest; other compilers fuse other operations", "anchors": ["concrete-cuda/cuda/src/fft/bnsmfft.cuh: NSMFFT_direct, NSMFFT_inverse", "concrete-cuda/cuda/src/polynomial/functions.cuh: add_to_torus", "concrete-cuda/cuda/src/crypto/torus.cuh: typecast_double_to_torus", "concrete-cuda/cuda/src/types/int128.cuh: make_uint128_from_float", "concrete-cuda/cuda/src/crypto/bootstrapping_key.cuh: cuda_convert_lwe_bootstrap_key"]}
{"id": "C84", "title": "Fourier keys can be moved between machines", "statement": "A Fourier bootstrap key or GGSW ciphertext that is serialized on one machine can be deserialized on another one, whose processor differs and whose Fourier transform, chosen by a measure of speed, keeps the coefficients in another order: each coefficient of each polynomial is read back with the same bits, and bootstraps and external products on the second machine have the same error bound as if the key had been converted there.", "quantifier": "all keys, parameters, pairs of orders of the coefficients, pairs of processors, both builds", "why_tests_cant": "a test serializes and deserializes on one machine with one plan, for which the order of the coefficients cancels out", "anchors": ["concrete-core/src/backends/fft/private/math/fft/mod.rs: FourierPolynomialList, Fft::new, serialize_fourier_buffer, deserialize_fourier_buffer", "concrete-core/src/backends/fft/implementation/engines/fft_serialization_engine/serialization.rs", "concrete-core/src/backends/fft/implementation/engines/fft_serialization_engine/deserialization.rs"]}
{"id": "C85", "title": "The vertical packing of CUDA selects the entry spelled by the bits", "statement": "On GGSW encryptions of bits and a list of lookup tables, the vertical packing of the CUDA backend outputs, for each table, an LWE encryption of the entry whose index is spelled by the bits, most significant bit first, as on the CPU; the error is at most that of one CMUX per bit.", "quantifier": "all bits, tables, numbers of tables and of layers, keys, noises, previous contents of the buffers, decomposition parameters", "why_tests_cant": "the fixture has exactly log2(N) bits, so its tree has no layer; the selected entry depends on all bits and the error on all inputs", "anchors": ["concrete-cuda/cuda/src/vertical_packing.cuh: cmux, device_batch_cmux, host_cmux_tree, device_blind_rotation_and_sample_extraction", "concrete-cuda/cuda/src/wop_bootstrap.cuh: host_circuit_bootstrap_vertical_packing", "concrete-core/src/backends/cuda/implementation/engines/cuda_engine/lwe_ciphertext_vector_discarding_circuit_bootstrap_boolean_vertical_packing.rs"]}
{"id": "C86", "title": "The circuit bootstrap of CUDA turns LWE encryptions of bits into GGSW encryptions", "statement": "On LWE encryptions of bits with errors below the bound of the sign bootstrap, the circuit bootstrap of the CUDA backend outputs GGSW encryptions of the same bits under the key of the packing keyswitch, with a bounded error, for every order of the threads and all previous contents of the buffers; followed by the vertical packing, each output is an encryption of the table entry spelled by the bits.", "quantifier": "all inputs, numbers of inputs and of levels, keys, noises, decomposition parameters, thread schedules, previous contents of the buffers, tables", "why_tests_cant": "the fixture has one parameter set, one GPU and one schedule; the error bound ranges over all noises", "anchors": ["concrete-cuda/cuda/src/circuit_bootstrap.cuh: shift_lwe_cbs, fill_lut_body_for_cbs, copy_add_lwe_cbs, host_circuit_bootstrap", "concrete-cuda/cuda/src/wop_bootstrap.cuh: host_circuit_bootstrap_vertical_packing", "concrete-core/src/backends/cuda/private/crypto/wopbs/mod.rs: execute_circuit_bootstrap_vertical_packing_on_gpu"]}
{"id": "C87", "title": "The buffers of the wop-PBS of CUDA are large enough and hold disjoint, aligned arrays", "statement": "For every number of bits, tables and levels and every shared memory size, all the arrays that the bit extraction, the circuit bootstrap, the CMUX trees and the blind rotation of the CUDA backend use lie in the memory that the scratch functions allocate, are aligned for their elements and do not overlap, also for the arrays of the blocks; what the scratch functions write (indexes, zeros) is where the host functions read it.", "quantifier": "all GLWE dimensions, supported polynomial sizes, LWE dimensions, levels, numbers of bits, of tables and of samples, shared memory sizes, previous contents of the memory", "why_tests_cant": "the fixtures use one parameter set, for which the paddings happen to agree; an overlap or a read of unwritten memory shows only for some sizes and contents", "anchors": ["concrete-cuda/cuda/src/wop_bootstrap.cuh: get_buffer_size_cbs_vp, scratch_circuit_bootstrap_vertical_packing, host_circuit_bootstrap_vertical_packing, scratch_wop_pbs, host_wop_pbs", "concrete-cuda/cuda/src/circuit_bootstrap.cuh: get_buffer_size_cbs, host_circuit_bootstrap", "concrete-cuda/cuda/src/vertical_packing.cuh: get_buffer_size_cmux_tree, host_cmux_tree, get_buffer_size_blind_rotation_sample_extraction, host_blind_rotate_and_sample_extraction", "concrete-cuda/cuda/src/bit_extraction.cuh: get_buffer_size_extract_bits, scratch_extract_bits, host_extract_bits", "concrete-cuda/cuda/src/crypto/ggsw.cuh: device_batch_fft_ggsw_vector"]}
{"id": "C88", "title": "The bit extraction of CUDA outputs encryptions of the bits of the message", "statement": "On an encryption of m at position delta, the bit extraction of the CUDA backend writes to its output, for every order in which the threads and blocks run and every previous content of the memory, encryptions of the requested lowest bits of m at the top bit, most significant first, with an error that grows by one bootstrap per bit, as on the CPU; it changes nothing else.", "quantifier": "all messages, positions, numbers of bits, keys and noises within the stated bounds, schedules of the threads and blocks of every kernel, previous contents of the output and of the buffers", "why_tests_cant": "the result depends on the interleaving of thousands of threads and on the noise, and the error accumulates over the bits; a test runs one schedule on one GPU", "anchors": ["concrete-cuda/cuda/src/bit_extraction.cuh: copy_and_shift_lwe, copy_small_lwe, add_sub_and_mul_lwe, fill_lut_body_for_current_bit, host_extract_bits", "concrete-core/src/backends/cuda/private/crypto/wopbs/mod.rs: execute_lwe_ciphertext_vector_extract_bits_on_gpu", "concrete-core/src/backends/cuda/implementation/engines/cuda_engine/lwe_ciphertext_discarding_bit_extraction.rs"]}
{"id": "C89", "title": "Extracting the bits of a message and looking them up evaluates the table at the message", "statement": "The bits extracted from an encryption of m, given to the circuit bootstrap and vertical packing with a list of tables of 2^(number of bits) entries, give for each table an encryption of its entry number m modulo the number of entries, up to an explicit error, on the CPU and, for one input, in the function of the CUDA library that does both.", "quantifier": "all messages, positions, numbers of bits and of tables, tables, keys and noises within the stated bounds, build profiles; on CUDA all schedules of the threads and previous contents of the buffers", "why_tests_cant": "whether the order of the bits and the growth of the noise fit together depends on the message, the table and the parameters; on CUDA the fixtures only use as many bits as log2 N, where the wrong order does not show", "anchors": ["concrete-core/src/backends/fft/private/crypto/wop_pbs/mod.rs: extract_bits, circuit_bootstrap_boolean_vertical_packing, vertical_packing, cmux_tree_memory_optimized", "concrete-cuda/cuda/src/wop_bootstrap.cuh: scratch_wop_pbs, host_wop_pbs", "concrete-cuda/cuda/src/wop_bootstrap.cu: cuda_wop_pbs_64, cuda_wop_pbs_32"]}
{"id": "C90", "title": "The Boolean gates of the CUDA library compute the gates on encrypted bits, in circuits of any size", "statement": "NOT, AND, NAND, NOR, OR, XOR and XNOR on vectors of encrypted bits give encryptions of the results of the gates, with an error that (for the gates with two inputs) does not depend on the inputs, so that every circuit of gates decrypts to its value; the inputs are unchanged and the device memory that a gate allocated is released.", "quantifier": "all gates, circuits, bits, numbers of ciphertexts, keys and noises within the stated bounds, all orders of the threads and all previous contents of the device memory", "why_tests_cant": "circuits of unbounded depth, all noises up to the bound and all schedules of the threads cannot be enumerated; a leak does not change any result", "anchors": ["concrete-cuda/cuda/src/boolean_gates.cu: cuda_boolean_not_32, cuda_boolean_and_32, cuda_boolean_nand_32, cuda_boolean_nor_32, cuda_boolean_or_32, cuda_boolean_xor_32, cuda_boolean_xnor_32"]}
{"id": "C91", "title": "The noise of encryption never exceeds 13.22 standard deviations, so that fresh ciphertexts always decrypt", "statement": "Every noise value that an encryption draws is at most 13.22 standard deviations (rounded to the torus), for every output of the random generator. If that is less than half of the distance between messages, a fresh LWE or GLWE ciphertext, and a ciphertext switched with a freshly generated keyswitching key, decrypt to the message always, not just with high probability.", "quantifier": "all bytes of the random generators, all word sizes up to 128 bits, all valid noise parameters (standard deviation or variance), all messages, keys and dimensions", "why_tests_cant": "the bound concerns the extreme tail of 2^128 pairs of draws; a test draws typical values, and statistical tests of the sampler cannot see its support", "anchors": ["concrete-core/src/commons/math/random/gaussian.rs: gaussian sampling", "concrete-core/src/specification/dispersion.rs: StandardDev, Variance", "concrete-core/src/commons/crypto/secret/generators/encryption.rs: random_noise, fill_tensor_with_random_noise"]}
{"id": "C92", "title": "A whole session with floating point noise and floating point transforms gives the exact result, whatever bytes the generators give", "statement": "When keys are generated, inputs encrypted, a program of linear operations, keyswitches and table lookups run with the Fourier backend and outputs decrypted, every output whose noise bound (computed from 13.22 standard deviations) is below half a step decodes to the value of the program on integers, for all bytes that the random generators give.", "quantifier": "all programs, inputs, keys, parameters and noise parameters within the bound, all orders of the threads of the key generation, all bytes of the generators, 32 and 64 bits", "why_tests_cant": "programs of unbounded length and all random bytes cannot be enumerated; rare noises and rounding errors of floating point do not occur in tests", "anchors": ["concrete-core/src/commons/math/random/gaussian.rs: gaussian sampling", "concrete-core/src/backends/fft/private/math/fft: Fft", "concrete-core/src/backends/fft/implementation/engines/fft_engine/lwe_ciphertext_discarding_bootstrap.rs: discard_bootstrap_lwe_ciphertext", "concrete-core/src/commons/crypto/bootstrap/standard/mod.rs: fill_with_new_key, par_fill_with_new_key", "concrete-core/src/commons/crypto/lwe/keyswitch.rs: fill_with_keyswitch_key"]}
{"id": "C93", "title": "The parallel vector bootstrap of the Fourier backend equals the one by one bootstrap, for every schedule", "statement": "A vector bootstrap accepted by the checks of the parallel Fourier engine ends on any number of threads, never panics and writes in each output exactly what the engine for one ciphertext computes from the corresponding input and accumulator, so that each output decrypts to its own table at its own input; it is accepted exactly when dimensions fit the key, the polynomial size is supported and the vectors have the same number of ciphertexts. Without the checks, vectors of unequal lengths are processed up to the shortest and other words are left alone, and dimensions that do not fit make the first item panic before any write.", "quantifier": "all vectors, keys, parameters, numbers of threads, and interleavings of the threads word by word", "why_tests_cant": "the interleavings of threads and the contents of the vectors cannot be enumerated; a test sees one schedule", "anchors": ["concrete-core/src/backends/fft/implementation/engines/fft_parallel_engine/lwe_ciphertext_vector_discarding_bootstrap.rs: discard_bootstrap_lwe_ciphertext_vector, discard_bootstrap_lwe_ciphertext_vector_unchecked", "concrete-core/src/backends/fft/implementation/engines/fft_parallel_engine/mod.rs: FftParallelEngine, FFT_ENGINE", "concrete-core/src/specification/engines/lwe_ciphertext_vector_discarding_bootstrap.rs: perform_generic_checks"]}
{"id": "C94", "title": "Noise given as a standard deviation, a variance or a logarithm is the same noise", "statement": "A power of two given as logarithm, standard deviation or variance answers all queries (standard deviation, variance, logarithm, in the torus or modulo 2^k) identically; a standard deviation turned into a variance and back is unchanged bit for bit (within the range without underflow or overflow); constructors for noise modulo 2^k divide exactly and are inverted by the getters on powers of two. A variance turned into a standard deviation and back keeps a relative error of 2^-51, but is not unchanged in general.", "quantifier": "all representable double precision numbers in the stated ranges, all moduli up to 2^100", "why_tests_cant": "there are about 2^62 double precision numbers in the range; tests try a few powers of two", "anchors": ["concrete-core/src/specification/dispersion.rs: DispersionParameter, LogStandardDev, StandardDev, Variance"]}
{"id": "C95", "title": "What an engine encrypted at any point of its life, the engine calls decrypt", "statement": "Whatever calls an engine served before and after, decrypting the result of an LWE or GLWE encryption call (single, discarding, of zero, vector, parallel, public key) with the same key through any of the decryption calls returns the messages plus noise the sampler can return; a seeded ciphertext does so after its transformation; a trivial encryption decrypts exactly to its plaintexts under every key of matching dimensions. Mismatched dimensions are reported as errors (except by the single LWE decryption, which checks nothing).", "quantifier": "all histories of calls, all seeds and byte tables, all keys, messages, dimensions and previous contents of output entities", "why_tests_cant": "histories, keys and messages are unbounded; tests decrypt right after one encryption", "anchors": ["concrete-core/src/backends/default/implementation/engines/default_engine/lwe_ciphertext_decryption.rs", "concrete-core/src/backends/default/implementation/engines/default_engine/glwe_ciphertext_vector_discarding_decryption.rs: discard_decrypt_glwe_ciphertext_vector", "concrete-core/src/backends/default/implementation/engines/default_engine/lwe_seeded_to_lwe_ciphertext_transformation.rs", "concrete-core/src/backends/default/implementation/engines/default_engine/glwe_ciphertext_vector_trivial_encryption.rs"]}
{"id": "C96", "title": "The key statistics of the noise estimator are the moments of random keys", "statement": "For binary, ternary and Gaussian keys and for the zero key, the constants the noise estimator publishes (mean and variance of a coefficient and of its square, variance of the odd and even coefficients of the square of a key polynomial, variance of the coefficients of a product of two keys, mean squared expectations) are exactly the corresponding moments of keys with independent coefficients, for every polynomial size.", "quantifier": "all polynomial sizes (1 or even), all coefficient indices, all moduli; for Gaussian keys all coefficient distributions with the moments of a normal law", "why_tests_cant": "the constants are sums over all keys: 2^N of them for binary keys of size N; sampling only gives an approximation for a few sizes", "anchors": ["concrete-npe/src/key_dispersion.rs: KeyDispersion", "concrete-npe/src/key_dispersion.rs: variance_odd_coefficient_in_polynomial_key_squared"]}
{"id": "C97", "title": "The noise estimates of linear operations and of the modulus switching are the variances of the operations", "statement": "Given independent noises, the estimates for addition, sum, multiplication by an integer, weighted sum and polynomial multiplication are exactly the variance of the noise of the result; the estimate for the modulus switching is the variance of the noise of the switched ciphertext for a uniform mask and a random binary key; the estimates for the bootstrap, CMux, bit extraction and bootstrap without padding are the announced combinations of the simpler ones.", "quantifier": "all noise distributions with finite support, all weights whose square fits the integer type, all dimensions, all moduli, all binary keys with at least two ones", "why_tests_cant": "variances over all masks and noises cannot be enumerated; statistical tests accept estimates that are wrong by a few percent", "anchors": ["concrete-npe/src/operators.rs: estimate_weighted_sum_noise", "concrete-npe/src/operators.rs: estimate_polynomial_multiplication_noise", "concrete-npe/src/operators.rs: estimate_modulus_switching_noise_with_binary_key"]}
{"id": "C98", "title": "The keyswitch noise estimate is never below the variance of the keyswitch", "statement": "For an input with uniform mask, an input key of the given kind and centred independent noises, the noise of the keyswitched ciphertext has a variance of exactly the estimate minus a known non-negative term; this term is 0 for one decomposition level. Noise below the wrap-around bound never makes the keyswitch exceed the estimate.", "quantifier": "all word sizes, base logs, level counts, dimensions, key distributions, noise distributions with bounded finite support, messages, output keys and previous contents of the output", "why_tests_cant": "the variance is over all masks, keys and noises; the deviation of the estimate is far below what sampling can see", "anchors": ["concrete-npe/src/operators.rs: estimate_keyswitch_noise_lwe_to_glwe_with_constant_terms", "concrete-core/src/commons/crypto/lwe/keyswitch.rs: keyswitch_ciphertext"]}
{"id": "C99", "title": "The external product noise estimate against the variance of the external product", "statement": "For a GGSW encryption of a uniform bit, a GLWE ciphertext of uniform words, a key of the given kind and centred independent noises, the external product is the bit times the message plus a noise whose variance, in each coefficient, is the estimate minus a known term of the decomposition and plus a known term which depends on the coefficient; with centred keys, and in the last coefficient, the variance never exceeds the estimate. With a binary key the constant coefficient can exceed the estimate.", "quantifier": "all word sizes, polynomial sizes, GLWE dimensions, base logs, level counts, exact transforms, key distributions, noise distributions with bounded finite support, output buffers and GGSW ciphertexts with these noises", "why_tests_cant": "the variance is over all keys, words and noises; the deviations are below what sampling can see", "anchors": ["concrete-npe/src/operators.rs: estimate_external_product_noise_with_binary_ggsw", "concrete-core/src/backends/fft/private/crypto/ggsw.rs: external_product"]}
{"id": "C100", "title": "The noise estimates of the packing and private functional keyswitches are never below the variance", "statement": "For a ciphertext with uniform mask, an input key of the given kind and centred independent noises, the packing keyswitch encrypts the message as a constant; the variance of the noise of the constant coefficient is the estimate with constant terms, and that of the others the estimate with non constant terms, both minus a known non-negative term (0 for one level). The same holds for the private functional keyswitch of x -> R x with the estimate for the Lipschitz constant R, where the body is decomposed as well.", "quantifier": "all word sizes, dimensions, polynomial sizes, base logs, level counts, integers R, coefficients, key distributions, noise distributions with bounded finite support, previous contents of the output", "why_tests_cant": "the variance is over all masks, keys and noises and is claimed for every coefficient and parameter set", "anchors": ["concrete-npe/src/operators.rs: estimate_private_functional_keyswitch_noise_lwe_to_glwe_with_constant_terms", "concrete-npe/src/operators.rs: estimate_keyswitch_noise_lwe_to_glwe_with_non_constant_terms", "concrete-core/src/commons/crypto/glwe/keyswitch.rs: keyswitch_ciphertext"]}
{"id": "C101", "title": "The CMux noise estimate exceeds the variance of the CMux by the noise of the first ciphertext", "statement": "For a GGSW encryption of a uniform bit, any first ciphertext, a second ciphertext of uniform words, a key of the given kind and centred independent noises, the CMux is the message of the selected ciphertext plus a noise whose variance, in each coefficient, is the estimate minus the variance of the noise of the first ciphertext, minus a known term of the decomposition, plus the coefficient dependent term of the external product. With centred keys, and in the last coefficient, it never exceeds the estimate.", "quantifier": "all word sizes, polynomial sizes, GLWE dimensions, base logs, level counts, exact transforms, first ciphertexts, key distributions, noise distributions with bounded finite support and GGSW ciphertexts with these noises", "why_tests_cant": "the variance is over all bits, keys, words and noises", "anchors": ["concrete-npe/src/operators.rs: estimate_cmux_noise_with_binary_ggsw", "concrete-core/src/backends/fft/private/crypto/ggsw.rs: cmux"]}
{"id": "C102", "title": "The number of noise bits bounds the noise, and the other estimators have their stated meaning", "statement": "The estimated number of noise bits is the least m with 4 standard deviations at most 2^m, and a centred noise of any distribution with this variance reaches 2^m with probability at most 1/16. The most significant bits estimate is the variance of the unreduced b - sum a_i s_i in units of the modulus for uniform words. The multiplication estimate is symmetric and the sum of the tensor product and relinearization estimates. The tensor product estimate is the sum of the variances of the rounding errors times the key coefficients, key products and key squares they meet, of the noise of the product of two noisy messages, and of the noises times the unreduced phases; the part of the relinearization estimate due to the key is the variance of the digits times the noises of the key. The relinearization estimate must depend on the base log through the rounding error (it does not: violated).", "quantifier": "all variances, moduli, distributions of noise, numbers of key coefficients, key kinds, dimensions, base logs and level counts", "why_tests_cant": "the probability and the variance are over all distributions, words and keys", "anchors": ["concrete-npe/src/tools.rs: estimate_number_of_noise_bits", "concrete-npe/src/operators.rs: estimate_msb_noise_rlwe, estimate_tensor_product_noise, estimate_relinearization_noise, estimate_multiplication_noise"]}
{"id": "C103", "title": "The sampler with a chosen probability of zero gives zero with this probability", "statement": "Drawing a uniform value with probability p of zero reads 4 bytes and answers zero, or the uniform value of the following bytes; it panics exactly when the bytes are not left. The share of 4 byte draws answered by zero differs from p by at most 129/2^32 for p in [0, 1], is nothing for p at most 0 or not a number and everything for p above 1. With p = 1 the result is always zero (violated). A tensor of n elements never needs more than n times the bytes of one word plus 4.", "quantifier": "all probabilities, word sizes, tables of bytes, positions and numbers of elements", "why_tests_cant": "the exceptions to the documented example have probability 2^-25 per draw", "anchors": ["concrete-core/src/commons/math/random/uniform_with_zeros.rs: generate_one", "concrete-core/src/commons/math/random/generator.rs: random_uniform_with_zeros, fill_tensor_with_random_uniform_with_zeros, random_uniform_with_zeros_tensor"]}
{"id": "C104", "title": "Tensor operations act element by element", "statement": "For tensors of the same length every fill and update operation of a tensor gives in each element the operation of the elements of the operands with this index and nothing else; it panics exactly when the operation of some element panics (division by zero, and in debug builds shifts by the width or more). For other lengths it panics in debug builds, and in release builds it writes the elements all tensors have and keeps the others; a copy panics in all builds. Word operations are arithmetic modulo 2^w. Folds run from the first to the last element; rotations and reversals permute the elements as documented and panic for an amount above the length.", "quantifier": "all tensors of any lengths, element types, operations of the caller, word sizes and build modes", "why_tests_cant": "lengths, values and operations are unbounded", "anchors": ["concrete-core/src/commons/math/tensor/tensor.rs: fill_with_one, fill_with_two, update_with_one, update_with_two, update_with_element, fold_with_one, rotate_left, rotate_right, reverse", "concrete-core/src/commons/math/tensor/mod.rs: ck_dim_eq"]}
{"id": "C105", "title": "Extraction, packing, conversion and trivial GGSW calls report or compute", "statement": "On well-formed entities the checked calls of the default engine for sample extraction, packing keyswitch, private functional packing keyswitch, conversion of bootstrap and keyswitch keys into views and trivial GGSW encryption never panic: they report the first dimension that does not fit, before writing, or they succeed. Then the extracted ciphertext decrypts to the coefficient asked for, the packed ciphertext decrypts to the packed messages (times the function of the key) up to the announced error, the view equals the converted key, and the trivial GGSW ciphertext encrypts the message without noise under every key.", "quantifier": "all well-formed entities of any dimensions, indices, messages, keys, supported decomposition parameters, word sizes and build modes", "why_tests_cant": "dimensions, contents and parameters are unbounded", "anchors": ["concrete-core/src/backends/default/implementation/engines/default_engine/lwe_ciphertext_discarding_extraction.rs: discard_extract_lwe_ciphertext", "concrete-core/src/backends/default/implementation/engines/default_engine/lwe_ciphertext_vector_glwe_ciphertext_discarding_packing_keyswitch.rs: discard_packing_keyswitch_lwe_ciphertext_vector", "concrete-core/src/backends/default/implementation/engines/default_engine/lwe_ciphertext_vector_glwe_ciphertext_discarding_private_functional_packing_keyswitch.rs: discard_private_functional_packing_keyswitch_lwe_ciphertext_vector", "concrete-core/src/backends/default/implementation/engines/default_engine/lwe_bootstrap_key_discarding_conversion.rs: discard_convert_lwe_bootstrap_key", "concrete-core/src/backends/default/implementation/engines/default_engine/lwe_keyswitch_key_discarding_conversion.rs: discard_convert_lwe_keyswitch_key", "concrete-core/src/backends/default/implementation/engines/default_engine/ggsw_ciphertext_scalar_trivial_encryption.rs: trivially_encrypt_scalar_ggsw_ciphertext"]}
{"id": "C106", "title": "Evaluation keys made at any point of a history do what they are for", "statement": "Whatever calls an engine served before and after, a keyswitch key it generated switches every ciphertext from the first key to the second with the engine's own calls and decrypts to the same value up to an explicit error; packing and private functional packing keys likewise; bootstrap keys and circuit bootstrap keys, generated by one thread or by several in any order, hold encryptions of the key bits with errors of the noise sampler. Seeded keyswitch and bootstrap keys do the same after their transformation, which never panics.", "quantifier": "all histories of calls, positions in them, keys, ciphertexts, output contents, noise samplers, thread schedules, word sizes and build modes, with b l < w", "why_tests_cant": "the set of histories, schedules, ciphertexts and dimensions is unbounded", "anchors": ["concrete-core/src/backends/default/implementation/engines/default_engine/lwe_keyswitch_key_generation.rs: generate_new_lwe_keyswitch_key", "concrete-core/src/backends/default/implementation/engines/default_engine/lwe_seeded_keyswitch_key_to_lwe_keyswitch_key_transformation.rs: transform_lwe_seeded_keyswitch_key_to_lwe_keyswitch_key", "concrete-core/src/backends/default/implementation/engines/default_engine/lwe_seeded_bootstrap_key_to_lwe_bootstrap_key_transformation.rs: transform_lwe_seeded_bootstrap_key_to_lwe_bootstrap_key", "concrete-core/src/backends/default/implementation/engines/default_engine/lwe_packing_keyswitch_key_generation.rs", "concrete-core/src/backends/default/implementation/engines/default_engine/lwe_ciphertext_discarding_keyswitch.rs: discard_keyswitch_lwe_ciphertext"]}
{"id": "C107", "title": "A serialized entity is only accepted as what it was serialized from", "statement": "Bytes obtained by serializing an entity are accepted by the deserialization of this kind and width of entity only, and what is accepted has consistent dimensions. (This does not hold: the kind and width are not recorded and dimensions are not checked. What holds is the exact condition under which bytes of one kind are accepted as another, and the rejection of 32-bit entities with more than 12 words by all 64-bit kinds.)", "quantifier": "all ordered pairs of kinds of entities that start with a tensor, all widths, all values", "why_tests_cant": "all pairs of kinds, all values and lengths", "anchors": ["concrete-core/src/backends/default/implementation/engines/default_serialization_engine/entity_serialization.rs: serialize", "concrete-core/src/backends/default/implementation/engines/default_serialization_engine/entity_deserialization.rs: deserialize"]}
{"id": "C108", "title": "The calls of the Fourier engine report an argument that does not fit or compute", "statement": "The conversions of GGSW ciphertexts and bootstrap keys, the external product, the CMUX and the bootstrap of the Fourier engine never panic on well-formed arguments. They report a polynomial size that is not a power of two of at least 32, then the first dimension that does not fit, and otherwise compute what they announce, within an explicit error, whatever the output held. A bootstrap key generated at any point of a history of an engine, converted, bootstraps every ciphertext to a ciphertext of the value of the accumulator at its phase.", "quantifier": "all arguments of the calls, both builds, all transforms with a bounded error, all histories of an engine", "why_tests_cant": "all dimensions, all values of the ciphertexts and keys, all histories", "anchors": ["concrete-core/src/backends/fft/implementation/engines/fft_engine/mod.rs: perform_fft_checks", "concrete-core/src/backends/fft/implementation/engines/fft_engine/lwe_ciphertext_discarding_bootstrap.rs: discard_bootstrap_lwe_ciphertext", "concrete-core/src/backends/fft/implementation/engines/fft_engine/glwe_ciphertexts_ggsw_ciphertext_fusing_cmux.rs: fuse_cmux_glwe_ciphertexts_ggsw_ciphertext", "concrete-core/src/backends/fft/implementation/engines/fft_engine/lwe_bootstrap_key_conversion.rs: convert_lwe_bootstrap_key"]}
{"id": "C109", "title": "The calls for messages without padding report an argument that does not fit or compute", "statement": "The bit extraction call and the call for circuit bootstrap and vertical packing report the first dimension, table size or decomposition that does not fit, and otherwise write ciphertexts of the bits, respectively of the entries of the tables at the index that the input bits form, within an explicit error, whatever the outputs held. With keys generated at any points of a history of an engine, extraction followed by packing maps an encryption of a message to an encryption of its table entry. (Violated: the checks accept arguments on which the calls panic.)", "quantifier": "all arguments of the calls, both builds, all transforms with a bounded error, all messages and tables, all histories of an engine", "why_tests_cant": "all dimensions, all values of the ciphertexts, tables and keys, all histories", "anchors": ["concrete-core/src/backends/fft/implementation/engines/fft_engine/lwe_ciphertext_discarding_bit_extraction.rs: discard_extract_bits_lwe_ciphertext", "concrete-core/src/backends/fft/implementation/engines/fft_engine/lwe_ciphertext_vector_discarding_circuit_bootstrap_boolean_vertical_packing.rs: discard_circuit_bootstrap_boolean_vertical_packing_lwe_ciphertext_vector", "concrete-core/src/specification/engines/lwe_ciphertext_vector_discarding_circuit_bootstrap_boolean_vertical_packing.rs: perform_generic_checks"]}
{"id": "C110", "title": "With uniform bytes the keys and masks are uniform and the noise is symmetric", "statement": "If the bytes of the generators are uniform and independent, then every list of words, of bits, of words with random high or low bits, and of ternary values is drawn with the same probability as every other of its length; so every binary secret key is as likely as any other, and every mask of an LWE encryption too, whatever the key, the message and the noise. The noise has mean zero, noises drawn together or in sequence are uncorrelated, and a list of noises is as likely as the list with any of its signs changed, when the noise cannot wrap.", "quantifier": "all numbers of values and of bytes, all lists of values, all keys, messages and dispersions, both builds", "why_tests_cant": "a test draws some values; the statement is about the number of byte strings behind each value", "anchors": ["concrete-core/src/commons/math/random/uniform.rs: generate_one", "concrete-core/src/commons/math/random/uniform_binary.rs: generate_one", "concrete-core/src/commons/math/random/uniform_ternary.rs: generate_one", "concrete-core/src/commons/math/random/uniform_lsb.rs: generate_one", "concrete-core/src/commons/math/random/uniform_msb.rs: generate_one", "concrete-core/src/commons/math/random/gaussian.rs: generate_one", "concrete-core/src/commons/crypto/secret/lwe.rs: generate_binary, encrypt_lwe", "concrete-core/src/commons/crypto/secret/glwe.rs: generate_binary"]}
{"id": "C111", "title": "Encrypted numbers come back within the tolerance of their range", "statement": "Floating point numbers within the ranges asked for are encoded, encrypted as LWE or GLWE ciphertexts by any encryption call at any point of the life of an engine, decrypted and decoded, and every number comes back within an explicit tolerance, for all bytes of the random generators. Values put in cleartexts, plaintexts and vectors of them are retrieved unchanged, in place or not; an empty vector and an output of another length are reported as errors. The encoder with an offset and a length gives numbers back modulo its length.", "quantifier": "all lists of numbers and ranges, all histories of engine calls, all bytes of the generators, both builds, 32 and 64-bit words", "why_tests_cant": "all numbers, all noise values, all histories", "anchors": ["concrete-core/src/backends/default/implementation/engines/default_engine/cleartext_vector_creation.rs: create_cleartext_vector_from", "concrete-core/src/backends/default/implementation/engines/default_engine/cleartext_vector_encoding.rs: encode_cleartext_vector", "concrete-core/src/backends/default/implementation/engines/default_engine/plaintext_vector_decoding.rs: decode_plaintext_vector", "concrete-core/src/backends/default/implementation/engines/default_engine/cleartext_vector_discarding_retrieval.rs: discard_retrieve_cleartext_vector", "concrete-core/src/commons/crypto/encoding/encoder.rs: RealEncoder, encode_list, decode_list"]}
{"id": "C112", "title": "Generators with a limited number of noise bytes almost never run out", "statement": "The calls that give each of their parts a generator with a limited number of bytes for the noise (encryption of a list of LWE ciphertexts in parallel, GGSW encryption, generation of bootstrap keys, standard and seeded, on one thread or more, generation of private functional packing keyswitch keys and of the keys of the circuit bootstrap) panic when one of these generators runs out. Counted over all strings of bytes, this happens for at most the fraction 2^-96 for each LWE ciphertext and 2^-26N for each GLWE ciphertext of polynomial size N (2^-24lN for each chunk of l GLWE ciphertexts of a private functional packing keyswitch key). It can happen: no finite number of bytes is always enough.", "quantifier": "all keys, messages, dimensions, polynomial sizes, numbers of levels and of ciphertexts, all schedules, all standard deviations, all strings of bytes", "why_tests_cant": "the strings of bytes that fail are too rare to be met, and a wrong budget would only fail sometimes", "anchors": ["concrete-core/src/commons/crypto/secret/generators/encryption.rs: noise_bytes_per_coef, noise_bytes_per_lwe, fork_lwe_list_to_lwe, fork_bsk_to_ggsw", "concrete-core/src/commons/math/random/gaussian.rs: Gaussian", "concrete-core/src/commons/crypto/secret/lwe.rs: par_encrypt_lwe_list", "concrete-core/src/commons/crypto/bootstrap/standard/mod.rs: fill_with_new_key, par_fill_with_new_key", "concrete-core/src/commons/crypto/bootstrap/seeded_standard/mod.rs: fill_with_new_key, par_fill_with_new_key"]}
{"id": "C113", "title": "Secret keys of every kind encrypt and decrypt", "statement": "Binary, ternary, gaussian and uniform secret keys have the asked dimension and coefficients of their kind (0 or 1; -1, 0 or 1; at most 42 in absolute value, which is 13.22 standard deviations; any word). Whatever the kind, a ciphertext encrypted under the key decrypts to its message plus the noise drawn by the call, and no call panics because of the values of the key.", "quantifier": "all kinds, dimensions, polynomial sizes, generators, messages, noise parameters, masks and builds", "why_tests_cant": "the engines only use binary keys; the other kinds are only tested for their moments, and the panics depend on the drawn mask and on the build", "anchors": ["concrete-core/src/commons/crypto/secret/lwe.rs: generate_binary, generate_ternary, generate_gaussian, generate_uniform, encrypt_lwe, decrypt_lwe", "concrete-core/src/commons/crypto/secret/glwe.rs: generate_binary, generate_ternary, generate_gaussian, generate_uniform", "concrete-core/src/commons/crypto/secret/generators/secret.rs: SecretRandomGenerator", "concrete-core/src/commons/crypto/lwe/ciphertext.rs: compute_multisum", "concrete-core/src/commons/math/torus/mod.rs: GAUSSIAN_KEY_LOG_STD"]}
{"id": "C114", "title": "A GLWE ciphertext taken to the NTT domain and back decrypts to the same message", "statement": "Filling an NTT ciphertext from a GLWE ciphertext and filling a GLWE ciphertext back from it never panics when the sizes agree, whatever the containers hold before, and always panics when the polynomial sizes differ. With different numbers of polynomials, as many as both hold are transformed and the other polynomials of the output keep their content. Each coefficient that comes back is within 1 of the original; each decrypted coefficient is within k*N*S + 1 of the original one for keys of coefficients at most S (k*N + 1 for binary keys and the shipped tables). A second round trip changes nothing more.", "quantifier": "all ciphertexts, keys, container contents, GLWE dimensions, valid tables and moduli above a third of the torus; all the shipped tables", "why_tests_cant": "the doctests of these functions check no value; the error depends on every coefficient of the ciphertext and of the key", "anchors": ["concrete-core/src/backends/ntt/private/crypto/glwe/ntt.rs: fill_with_forward_ntt, fill_with_backward_ntt", "concrete-core/src/backends/ntt/private/math/transform.rs: forward_w_mod_switch, backward_w_mod_switch", "concrete-core/src/backends/ntt/private/math/params: shipped tables"]}
{"id": "C115", "title": "Keyswitching a list switches each of its ciphertexts", "statement": "With a key and ciphertexts of matching dimensions, the keyswitch of a list writes in each output ciphertext the keyswitch of the input ciphertext of the same index. When the counts differ, debug builds panic; release builds switch as many ciphertexts as both lists hold and leave the other outputs as they were. Debug builds panic on ciphertexts of another dimension. A list encrypted, switched and decrypted gives each message plus its noise plus an error within the bound of the keyswitch.", "quantifier": "all keys, lists, counts, dimensions, decomposition parameters, contents of the output, generators and builds", "why_tests_cant": "keyswitch_list has no test of its own; differing counts and the leftovers of the output are never exercised", "anchors": ["concrete-core/src/commons/crypto/lwe/keyswitch.rs: keyswitch_list, keyswitch_ciphertext, before_key_size, after_key_size", "concrete-core/src/commons/crypto/secret/lwe.rs: encrypt_lwe_list, decrypt_lwe_list"]}
{"id": "C116", "title": "The bit string of an integer shows all its digits in blocks", "statement": "The bit representation of an unsigned integer is made of its binary digits, all of them, most significant first, in blocks separated by single spaces; the digits give back the integer. The blocks have the length asked for. The call panics exactly when that length is zero.", "quantifier": "all precisions, integers and block lengths", "why_tests_cant": "there is one value per integer, precision and block length; lengths that do not divide the precision are never tried", "anchors": ["concrete-core/src/commons/numeric/unsigned.rs: UnsignedInteger::to_bits_string"]}
{"id": "C117", "title": "The program of the csprng writes the stream of its generator without gap or repetition", "statement": "The bytes written on the standard output are, in order, those that successive calls of next on a generator with the same seed return: no byte is lost or repeated between two turns of the loop.", "quantifier": "all seeds and block ciphers, any number of turns of the loop", "why_tests_cant": "the program has no test; its loop never ends", "anchors": ["concrete-csprng/src/main.rs: main"]}
{"id": "C118", "title": "A GGSW ciphertext taken to the Fourier domain and back is the same up to an explicit error", "statement": "Converting a GGSW ciphertext to the Fourier domain and back into a ciphertext of the same dimensions succeeds, does not depend on what the output held, and changes each coefficient by at most an explicit bound; the result is a GGSW encryption of the same message under the same key. When the bound on the floating point error is below half a unit in the last place, each coefficient other than the lowest signed one comes back exactly. Unsupported polynomial sizes and differing dimensions are reported, in a fixed order, and nothing panics.", "quantifier": "all ciphertexts, polynomial sizes (up to 2^41), GLWE dimensions, levels, bases, keys, processors, both builds and all transforms of given accuracy", "why_tests_cant": "this direction has no test fixture; a test would compare sampled ciphertexts and cannot bound the error on every one", "anchors": ["concrete-core/src/backends/fft/private/crypto/ggsw.rs: FourierGgswCiphertextView::fill_with_backward_fourier", "concrete-core/src/backends/fft/implementation/engines/fft_engine/ggsw_ciphertext_discarding_conversion.rs: discard_convert_ggsw_ciphertext"]}
{"id": "C119", "title": "A seeded GGSW ciphertext is determined by its compression seed and its bodies", "statement": "Encrypting a constant into a seeded GGSW ciphertext takes one seed from the seeder for the noise and the compression seed of the ciphertext for the masks. Whoever holds the compression seed and the bodies then obtains, into any output of the right dimensions and whatever it held, a GGSW encryption of the message, word for word the one the unseeded encryption makes with the same two seeds, and its errors are the noise drawn for each row. The parallel version gives the same bodies, takes the same seed and panics in the same cases under every schedule. The masks come from the compression seed alone: under one seed two ciphertexts have equal masks, and the phases of their rows differ, under every key, by the difference of their public bodies.", "quantifier": "all generators, seeds, keys, messages, noise samplers, polynomial sizes, GLWE dimensions, levels, bases, word sizes, outputs and schedules of levels and rows", "why_tests_cant": "a test runs one seed and one schedule; equality of the two ciphertexts and dependence on the seed alone must hold for every seed, content and schedule", "anchors": ["concrete-core/src/commons/crypto/secret/glwe.rs: encrypt_constant_seeded_ggsw, par_encrypt_constant_seeded_ggsw", "concrete-core/src/commons/crypto/ggsw/seeded_standard.rs: StandardGgswSeededCiphertext::expand_into", "concrete-core/src/commons/crypto/glwe/seeded_ciphertext.rs: GlweSeededCiphertext::expand_into"]}
{"id": "C120", "title": "Weighted sums over a list of ciphertexts fill each output with its own sum", "statement": "Filling a list of n LWE ciphertexts with weighted sums of n groups of c ciphertexts makes output i decrypt to bias_i plus the sum over j of weight_{i,j} times the decryption of input (i, j), whatever the output held, and missing weights or biases are reported. Decrypting a list gives in plaintext i the phase of ciphertext i and leaves the rest of a longer output as it was.", "quantifier": "all keys, ciphertexts, weights, biases, counts, dimensions, previous contents of the output and both builds", "why_tests_cant": "tests use a fresh zero output and matching counts; the previous content, partial weights and the divisibility rules of the checks are never exercised", "anchors": ["concrete-core/src/commons/crypto/lwe/list.rs: LweList::fill_with_multisums_with_biases, sublist_iter", "concrete-core/src/commons/crypto/lwe/ciphertext.rs: fill_with_multisum_with_bias", "concrete-core/src/commons/crypto/secret/lwe.rs: decrypt_lwe_list"]}
