# Formal model of concrete-core: design

## 1. Layout

    lean/Verif/<Area>/Model.lean   definitions transcribed from /repo, each citing file:lines
    lean/Verif/<Area>/Spec.lean    small independent specification used in statements
    lean/Verif/<Area>/Lemmas*.lean helper lemmas
    lean/Verif/<Area>/Props*.lean  the property theorems (named in MANIFEST.json), each followed by an
                                   `example` showing that its hypotheses are met by a concrete case
    tools/gen_ntt_params.py        generates lean/Verif/Ntt/Params/*.lean from the tables in /repo
    tools/coverage.py              lists the Rust functions cited / not cited by the model
    tools/axioms.py                writes AXIOMS.md (axioms of every theorem of the manifest)
    seeded/LOG.jsonl               wrong programs tried against the theorems

| area | content | properties |
|------|---------|------------|
| `Util` | lists, `BitVec` as a ring, containers and results (`Res`: ok / err / panic), parallel loops | |
| `Csprng` | table index, buffered state, AES-CTR generator, forks | C01-C07 |
| `Aes` | AES-128 of FIPS 197; AES-NI, aarch64 and software block ciphers | C53 |
| `Decomp` | signed decomposition of scalars and tensors | C08-C11 |
| `Random` | samplers, two-stream encryption generator, byte budgets, its link to `Csprng` | C19, C20, C50 |
| `Lwe` | LWE ciphertexts, encryption, linear operations, seeded forms, keyswitch | C12-C19 |
| `Poly` | polynomials and monomials modulo X^N+1, Karatsuba | C21-C23 |
| `Glwe` | GLWE and GGSW ciphertexts, seeded forms, bootstrap keys, sample extraction | C15, C17-C19, C24-C26 |
| `Pbs` | external product, cmux, modulus switch, blind rotation, bootstrap (FFT and NTT backends) | C27-C31 |
| `Ntt` | modular arithmetic, transforms, shipped tables, accuracy of the NTT backend | C27, C31, C34-C38 |
| `Pks` | packing and private functional packing keyswitch, circuit bootstrap keys, mask budgets | C19, C32, C33 |
| `Wop` | cmux tree, vertical packing, bit extraction, circuit bootstrap, its checked engine function | C43-C46, C51, C67 |
| `Engine` | vector engines, public keys, secret key transformations, generic checks of all engines | C39-C41, C47-C49 |
| `Serde` | versioned entity (de)serialization | C42 |
| `Gsw` | GSW ciphertexts | C19, C52 |
| `Float` | IEEE binary64 values, rounding to nearest even, the operations used by the encoders | |
| `Encode` | torus conversions, float encoders and their engines | C54-C56 |
| `Entity` | containers of the entities: allocation, accessors, iterators, creation and retrieval engines | C57, C58 |
| `Session` | the generators an engine owns and every engine call that draws from them, as a state machine | C59-C61 |
| `Fft` | Fourier transform of polynomials in IEEE arithmetic, with its vectorised versions, plan cache | C63-C65 |
| `Scratch` | scratch memory: what the Fourier functions announce and what they take | C66 |
| `Capi` | the C functions of concrete-cpu on raw memory | C68 |
| `Cuda` | the CUDA backend: vectors split over GPUs, transfers, kernels run by threads, memory layout and block communication of the bootstraps | C69-C72, C75-C83, C85-C90 |
| `Ffi` | the C interface: bodies of its 202 functions (generated table), heap objects, pointers of the caller, return codes | C73, C74 |
| `Circuit` | programs of engine calls on a file of LWE ciphertexts: linear operations, keyswitches, table lookups by bootstrapping | C62 |

## 2. Modelling conventions

* Machine words `u32`/`u64` are `BitVec w`, generic in `w`; wrapping operations are the `BitVec` ring
  operations. Purely algebraic code (polynomials, LWE/GLWE arithmetic) is modelled over an arbitrary
  commutative ring `R`, instantiated with `BitVec w`.
* Tensors / slices are `List`s. `&mut` arguments become returned values. Panics become explicit `none`
  / `Res.panic` values where a property speaks about them.
* `Build` (debug or release) is a parameter wherever overflow checks and `debug_assert!` matter.
* `usize` is 64 bits wide.
* Randomness: a generator is a position in an arbitrary byte stream; noise values are arbitrary words
  read from an arbitrary stream, so theorems hold for every noise. The link between the abstract stream
  and the AES-CTR generator of `Csprng` is proved in `Random/Refine.lean`.
* AES is an arbitrary function from 128-bit counters to 16 bytes in `Csprng` (so C01-C07 hold for every
  block cipher); `Aes` proves that the three block ciphers shipped are AES-128.
* `f64` (encoders, torus conversions): `Verif.Float.F64`, a finite rational, an infinity or NaN; each
  operation rounds the exact rational result to nearest even with gradual underflow and overflow to
  infinity. Simplifications: one zero; `2f64.powi(n)` returns the exact power when it is representable.
* Polynomial products enter the bootstrap as a parameter `Transform` with the error hypothesis
  `Transform.Accurate`. Two instances are modelled and proved to meet it: the NTT (`Ntt.ntt_accurate`) and the
  floating point Fourier transform (`Fft.fft_accurate`), so the bootstrap theorems hold without hypothesis on the
  products for both backends (C31_ntt, C63_bootstrap_partial). Of the Fourier transform everything in the
  repository is IEEE arithmetic on bits (conversions, twisting, products, normalisation, scalar, AVX2/FMA and
  AVX-512 versions); the complex transform of size N/2 of the crate `concrete_fft` and `sin_cos` are parameters
  with the accuracy hypotheses of `Fft/Spec.lean`, met by the exact functions rounded to nearest (`Fft/Ideal.lean`).
* rayon: a parallel loop over disjoint chunks is an arbitrary permutation of its iterations, each reading
  and writing only its own chunk (`Util/Par.lean`, `Util/ParChunks.lean`).

## 3. Plan per property

| id | model | proof |
|----|-------|-------|
| C01 | index, state, buffer, next of the AES-CTR generator over an arbitrary cipher | buffer invariant, induction over calls |
| C02 | try_fork | positions as naturals; streams from C01 |
| C03 | transition system over a list of generators, ops next/fork | invariant: live ranges pairwise disjoint and disjoint from emitted positions |
| C04 | remaining_bytes, distance | arithmetic + C01 |
| C05 | error branches of try_fork | arithmetic; violated for overflowing counts: witness + `_partial` |
| C06 | par_try_fork | equality of results for every schedule |
| C07 | TableIndex arithmetic | arithmetic modulo 2^132 |
| C08-C11 | decomposer and iterators on BitVec w | toNat/omega arithmetic, induction over levels |
| C12-C15 | LWE lists over a ring | algebra of the inner product |
| C16 | keyswitch key generation + keyswitch | sum manipulation, uses C09 |
| C17 | seeded variants driven by an abstract stream | equality of produced lists by induction |
| C18 | list encryption as chunks with forked generators | permutation invariance of disjoint updates |
| C19 | byte counts as functions; consumption of the mask fill | arithmetic |
| C20 | samplers on byte lists | induction over the stream |
| C21-C23 | list polynomials | coefficient formulas; embedding in R[X]/(X^N+1) |
| C24-C28 | GLWE/GGSW over polynomials | ring algebra in R[X]/(X^N+1) |
| C29 | shifts on BitVec | arithmetic |
| C30-C31 | blind rotation with the cmux of C28 | induction over the key |
| C32-C33 | packing keyswitches | as C16 with polynomials |
| C34-C36 | in-place butterfly NTT over a commutative ring; shipped tables | evaluation-tree induction; tables by kernel computation (finite table) |
| C37-C38 | ModQ on naturals | arithmetic |
| C39 | chunking of key tensors | list lemmas |
| C40-C41 | check functions | case analysis; violations by witness |
| C42 | bincode layout of the entities | parser/printer round trip |
| C43-C44 | streaming cmux tree | invariant on the carry counter |
| C45-C46 | bit extraction loop, circuit bootstrap over the PBS and the keyswitch | loop invariant |
| C47-C50 | default engine functions | list induction |
| C51 | C46 followed by C44 | composition of the two error bounds |
| C52 | GSW encryption, external product, cmux | as C16, C26-C28 over LWE rows |
| C53 | vector instructions on register bytes, FIPS 197 as specification | byte-level case analysis of one round / one key schedule step, induction over the schedule |
| C54-C56 | encoders over binary64 arithmetic; configurations and engines | rounding error analysis; case analysis; violations by witness |
| C57 | every container type with its allocation, constructors, accessors and iterators; a separate specification of "cut into parts" | one lemma on chunks, index arithmetic for the nested layouts |
| C58 | creation engines = generic checks + constructor; retrieval engines | case analysis with C57; violations by witness |
| C59 | engine state = secret, mask, noise and seeder sources; 34 kinds of calls, checked; histories are lists of calls | each call outputs whole ciphertexts whose masks are the next words (`MaskE`), then induction on the history |
| C60 | same | each function is local: it reads only the bytes between its positions (`Local`, `LocalE`, through forks and schedules), then induction |
| C61 | `newDefault`, `newParallel` | evaluation of the seeder; refinement to the AES generator (C53); shared stream by evaluation |
| C62 | `value`, `exec` over the models of the linear operations, keyswitch (C16) and bootstrap (C31); the accumulator of a table is built by the user and defined in `lutPoly` | induction on the program with the invariant `AllHold`: each register has phase `delta * m + e` with `e` within its bound; `lookup_position`: rounding to the nearest message |
| C63 | `Fft/Model` over `Float`, `Float/Bits`: conversions, twisting factors, pointwise products, normalisation, all instruction sets | error analysis: relative error of each operation, l2 bound (Parseval) of the forward transforms, Cauchy-Schwarz for the products, l1 bound of the inverse, exact identity `idft_products` for the negacyclic convolution |
| C64 | the intrinsics on one lane, on bits (`Fft/Simd`); loops over blocks | bit level: `ofBits`, `toBits`, magnitude and sign; loops are pointwise (`storeBlocks_eq`) |
| C65 | `Fft/Cache`: threads as program counters, a step function per thread, the lock, the map and the once-cells as shared state | inductive invariant (`CacheInv`) over all interleavings; a decreasing measure for termination |
| C66 | `Scratch/Model`: requirements with overflow checks, functions as trees of allocations on (address, length) | last address reached by a function <= end of what it announces, by the algebra of `try_and`/`try_or` (`Enough`) |
| C67 | `Wop/CbsEngine`: checks followed by `circuitBootstrap`, shape of generated keys | counting the output ciphertexts used per level |
| C68 | `Capi/Model`: memory as a list of words, pointers as indices; calls return, abort or are undefined; `Capi/Stack`: announced stacks | a range read back is what the caller put there (`At`), a call changes one range (`Wrote`); then C13, C16, C31, C57, C66; violations for all valid arguments |
| C69 | `Cuda/Model`: a device vector is a list of words, `none` before the first write; calls return, panic, exit or overrun; conversions of vectors, keys and GLWE ciphertexts | shape of the split (`layout`), by division with remainder; violations for all sizes by case of the remainder |
| C70 | `Cuda/Kernels`: grid dimensions, kernels as one step per thread, any order of the threads (`Order.Complete`), loop over the GPUs | threads write distinct words, so the order is irrelevant (`launch_writes`); the shares of the GPUs tile the vector (`forGpus_shares`) |
| C71 | `Cuda/Keyswitch`: the keyswitch kernel as a concurrent program of 128 threads per block with shared memory and barriers, one load or store per step; launch and loop over the GPUs | invariant of all interleavings: content of a cell as a function of the history of its owner, barriers keep epochs within one, the racy cell of the body followed separately (`BodyCell`); termination measure; the value by the coefficient formula of the CPU keyswitch |
| C72 | `Cuda/FpKeyswitch`: the private functional packing keyswitch kernel, its launch and the loop over the GPUs with one output on GPU 0 | the threads write distinct words, so any order gives the same memory; coefficient formula of the CPU function; runs that reach a bad thread always end in an access out of the memory |
| C73 | `Ffi/Model`, `Ffi/Table`: each C function as a list of statements (checks, dereferences, boxes taken, given and freed) with a semantics over the heap of the library and the variables of the caller, undefined behaviour included; the ledger of the caller in `Ffi/Spec` | a static check of the bodies, evaluated by the kernel on the whole table, implies that ledger and heap stay equal (induction over the statements, then over the history) |
| C74 | the same model | the same static check requires that every pointer is checked before the first effect; unchecked bodies equal checked ones once checks and computations are left out |
| C75 | `Cuda/PbsMemory`: sizes of the scratch buffer and of the shared memory, the kernel chosen, and the byte ranges of every array of every block of the amortized and low latency bootstraps | arithmetic on sizes that are multiples of 16; block numbers and join buffer slots are mixed radix numbers, hence distinct; the overlapping case is refuted for all parameters |
| C76 | `Cuda/Barrier`: programs of blocks cut into segments by `grid.sync`, run by any schedule; `Cuda/PbsLow`: the loop of the low latency bootstrap, one instruction per access to the join buffers, the arithmetic of a block being a parameter; the sums to be obtained in `Cuda/PbsLowSpec` | invariant over all schedules: between two barriers the memory of a place is what its only writer has put there; race freedom of the program gives calm schedules; the two schedules of the violation are evaluated by the kernel |
| C77 | `Cuda/PbsTables`: the index vector of the tables on host and device (unwritten memory has any content), the loop over the GPUs, and which table, input and output words a block uses; the bootstrap of one ciphertext is a parameter | exact description of the result for all contents of the unwritten memory, from which the right cases and the violations follow |
| C78 | `Cuda/Switch`: the modulus switch of the GPU, computed with IEEE doubles (`Float/Ieee`) | every operation after the conversion of the word is exact; compared with the nearest integer (`Pbs.nearestDegree`) and with the CPU's switch (C29) |
| C79 | `Cuda/Threads`: the code of each thread as a list of accesses to the arrays of the block and of barriers, run by the machine of `Cuda/Barrier` | `Cuda/ThreadLemmas`: a stretch of code between barriers in which each place has one owner has the same effect in any order; the effects of the stretches composed and compared with the CPU's functions (C23, C09, C25) |
| C80 | `Cuda/Amortized`: the loop of a block of the amortized bootstrap on whole polynomials (those of C79), with the order of the products, the indexes of the key and the `int32_t` digits; the transform is a parameter | `Cuda/AmortizedLemmas`: a turn of the loop is the CMUX of the CPU (`maskStep_eq`), so the invariant of C31 holds of it; the exponents are those of C78 |
| C81 | `Cuda/LowLatency`: the computations that are parameters of the machine of C76, with the products added in the order of the low latency kernel | `Cuda/LowLatencyLemmas`: the sum of a block is a sum of the pairs of the external product in another order; with C76 the accumulators at the end of a schedule are those of a sequential loop, to which the invariant of C31 applies |
| C82 | `Cuda/Nsmfft`: the code of a thread of `NSMFFT_direct` and `NSMFFT_inverse` (accesses and barriers, the arithmetic is a parameter), `Cuda/NsmTable`: the literals of twiddles.cuh (generated by tools/twiddles.py), `Cuda/NsmRoots`: the arithmetic on real numbers | `Cuda/NsmLemmas`: a level is a phase in which every element has one owner, so that the machine of C70 computes the levels one after the other for every schedule; `Cuda/NsmExact`: induction over the levels (after level s the element holds the value of a part of the polynomial at a root of the points of the level); the table: each pair of literals is checked in the kernel to be a square root of its parent, and a square root of a close number is close |
| C83 | `Cuda/NsmFloat`: the same transform in IEEE double precision (the table rounded to doubles, each place where the compiler may fuse a product with a sum is a parameter), conversion of the key and of the digits, products, `add_to_torus` | `Cuda/NsmErr`: error of a butterfly; `NsmFwd`, `NsmInv`: induction over the levels in the Euclidean norm; `NsmProd`, `NsmAccurate`, `NsmFinal`: as for the CPU (C63), with sums in any order; `NsmTorus`: the conversion to words; then C80 and C81 apply |
| C84 | `Serde/Transfer`: the codec of a plan that keeps the coefficients in an order of its own; `Fft/Transfer`: the transformed polynomials in the words of a Fourier entity | reading after writing permutes each polynomial (induction over the polynomials); the permutation carries the error bound of the writer to the order of the reader (`FwdOut.reorder`); `fft_signed_with` takes the keys from elsewhere; then C27 and C31 apply |
| C85 | `Cuda/VerticalPacking`: the CMUX of the GPU (which truncates), the layers of the CMUX trees in two buffers, the blind rotation and the sample extraction; the transform is a parameter | `Cuda/VpLemmas`: the CMUX of the GPU is the external product of the CPU on a difference shifted by half of the last place (`cmux_eq`, `epTrunc_ok`); `Cuda/VpTree`: invariant of the ping-pong buffers by induction over the layers; the rotation is that of C44 |
| C86 | `Cuda/CircuitBootstrap`: the kernels that shift, fill the tables and copy, as the lists of the words that their threads write, in any order; the bootstrap (C80) is a parameter; the keyswitch is that of C72; followed by C85 | `Cuda/CbsLemmas`: no two threads of a launch write one word, hence the order does not matter (`store_sched`), and what each part of a buffer holds; `Cuda/Props15`: the bootstraps compute signs (`signPbs_64`, `signPbs_32`), then the rows as in C46, then C85 |
| C87 | `Cuda/WopMemory`: the sizes that the scratch functions of the wop-PBS compute and the places where the host functions and the kernels put their arrays, as in C75 | `Cuda/Props16` and `Cuda/Props17`: with `pbsSizes` all sizes but the indexes and the first part are multiples of 16, the arrays follow one another (`apart_of_chain`), the blocks use disjoint slices; the place of the indexes from the end of the buffer (`indexes_end`) |
| C88 | `Cuda/BitExtraction`: the kernels of the bit extraction as lists of writes done in any order (as in C86), the loop over the bits, the keyswitch of C71 and the low latency bootstrap of C81 with their own schedules, the wrapper of the engine | `Cuda/BeLemmas` gives the buffers after each launch, `Cuda/BeLoop` the loop by induction with the invariant of C45, `Cuda/Props18` the result for 32 and 64-bit words and the violations |
| C89 | the composition of the bit extraction (C45, C88) with the circuit bootstrap and vertical packing (C51, C86); `Cuda/WopPbs` is the function of the CUDA library that does both | `Wop/Props6`: the bits of a number, most significant first, spell the number (`indexOf_bitsOf`), and the errors of the extracted bits meet the condition of C51; `Cuda/Props19`: the same on CUDA, with the index spelled out bit by bit (`SwappedIndex`) |
| C90 | `Cuda/BooleanGates`: the seven functions of boolean_gates.cu as lists of calls on named device buffers (allocations, copies, the linear kernels of C70, the amortized bootstrap of C80, the keyswitch of C71, releases) | `Cuda/BgLemmas`: each call on memory with any previous content, for every order of the threads; `Cuda/Props20`: each gate by its list of calls, the position of the phase before the bootstrap by cases on gate and bits, circuits by induction |
| C91 | `Random/Gauss`: the polar method of gaussian.rs and the noise parameters of dispersion.rs in IEEE double precision (`Float/Sqrt`: correctly rounded square root), with `f64::ln` as a parameter | `Random/GaussLemmas`: an error bound for each operation, the bound `-log s / s · u²` over the pairs that can be drawn (`|u| ≥ 2^-63`); `Random/GaussProps`: C91 for single draws, tensors, LWE and GLWE encryption and keyswitching |
| C92 | the models of C62 (programs), C63 (Fourier transform in `f64`), C26 (key generation by threads) and C91 (sampler in `f64`) together | `Circuit/Session`: composition; the hypotheses are met by a complete session |
| C93 | `Fft/Parallel`: the parallel engine of the Fourier backend as an interleaving of threads that take items and write word by word | invariant over all schedules, a measure for termination, progress; phases from C63 |
| C94 | `Random/Disp`: the three noise parameters, their six getters and their constructors, in `f64`; `powf(2, ·)` and `log2` are parameters | `Float/SqrtSq` (the square root of a rounded square is exact), then rational arithmetic; hypotheses on `powf` and `log2`: exact on powers of two (`Libm.Exact`) or a relative error (`Libm.Accurate`) |
| C95 | `Session/Decrypt`: the decryption, trivial encryption and decryption, and seeded transformation calls of the default engine, after the histories of `Session/Model`; `Session/DecryptSpec` says what a call encrypts and which noise is allowed | from C17, C18, C24 and C15 by cases on the call; the encryption calls of `Session/Model` have the release behaviour in both builds |
| C96 | `Npe/Model`: the four kinds of keys and the estimators of concrete-npe over exact rationals; `Npe/Prob`: finite probability distributions, expectation, variance, independence; `Npe/KeySpec`: which moment of a random key each constant is | moments of the coefficients of `S·S'` and `S²` modulo `X^N + 1` by expanding the monomials of `negaConv` (`Npe/KeyLemmas`) |
| C97 | the estimators of the linear operations and of the modulus switching of `Npe/Model` against the variance of the operation itself on random noises | independence (`Npe/ProbLemmas`); for the switching, the exact distribution of the rounding error of a uniform word (`Npe/Round`) on `switchDegree` of the model of the bootstrap |
| C98 | the keyswitch estimator of `Npe/Model` against the variance of the output of `keyswitchCiphertext` (C16) on a uniform mask, a random key and random noises | C16's phase, rounding errors (`Npe/Round`), expected squares of the signed digits by a two-term recursion over the levels (`Npe/Digits`) |
| C99 | `Npe/ExtSpec`: the random experiment of an external product with a GGSW ciphertext of a random bit; the estimator of `Npe/Model` against the variance of the output of `externalProduct` (C20) | C20's phase equation with all digits and errors made explicit (`Npe/ExtLemmas`), then the law of total variance over the bit, the key, the words and the noises |
| C100 | `Npe/PackSpec`: the random experiments of a packing and of a private functional keyswitch of one ciphertext; the estimators for constant and non constant terms against the variance of each coefficient of `packingKeyswitchOne` and `privateKeyswitchOne` (C32, C33) | phase of the loop over the blocks with explicit digits (`Npe/PackLemmas`), then the noise of one word as in C98 |
| C101 | the CMux estimator against the variance of the output of `cmuxFft` on the experiment of C99 | C99 for the difference of the ciphertexts; uniform words stay uniform when a fixed ciphertext is subtracted; the noise of the selected ciphertext is uncorrelated with the rest |
| C102 | `Npe/Model2`: the remaining noise estimators; the number of noise bits over the reals | the logarithm inequality, Chebyshev's inequality, the moments of the signed value of a uniform word, ring identities |
| C103 | `Random/Zeros`: the sampler with a chosen probability of zero, with the rounding of `u32 as f32` | closed form from C20; counting the draws between two intervals; the rounding error is at most 128 |
| C104 | `Tensor/Model`: the operations of `Tensor`, with the element operation as a function that may panic | induction on the zipped loops; `BitVec` lemmas for the word operations |
| C105 | `Entity/Calls`: the extraction, packing keyswitch, key conversion and trivial GGSW calls of the default engine with their checks; `Entity/CallsSpec` says which entities are well formed | from C25, C26, C32, C33 and the dimension lemmas of `Entity/Lemmas`; the missing check is proved as `C105_trivial_ggsw_violated` |
| C106 | `Session/Keys`: the transformations of seeded keys; `Session/KeysSpec` says what a key is for: the engine's keyswitch call with it followed by the engine's decryption gives the value back up to an explicit error | from the histories of C61/C95 and the key theorems C16, C17, C18, C31, C32, C33, C105; the key generations are calls of `Session/Model` at any point of a history |
| C107 | `Serde/Kinds`: a table of the layouts of the kinds of entities, written from their declarations | the parsers read a number of bytes that depends only on the length prefix; induction on the shape |
| C108 | `Pbs/Calls`: the calls of the Fourier engine over an abstract transform | the checks are evaluated one by one, then C27, C28, C31; C106 for the keys of a history |
| C109 | `Wop/Calls`: the bit extraction and the circuit bootstrap with vertical packing of the Fourier engine | the checks are evaluated one by one, then C45, C86; C106 for the keys of a history; the arguments that the checks miss are the `_violated` theorems |
| C110 | `Random/CountSpec` counts the strings of bytes that give a result, `Random/Count*` the samplers of `Random/Model` and `Random/Gauss` | the samplers are functions of the list of bytes; the counts are sums over the first bytes; the Gaussian sampler is odd in each of its two words (`Random/Odd`) |
| C111 | `Encode/Data`: creation and retrieval of cleartexts and plaintexts, `RealEncoder`, lists; `Encode/DataSpec`: ranges and tolerances | C54 with noise, C91 (bound on the noise) and C95 (decryption at any point of a history) |
| C112 | the samplers and forks of `Random/Model`, the calls of `Lwe/Model`, `Glwe/Model`, `Pks/Model` and `Pks/Cbs`, the floating point test of `Random/Gauss`; `Random/FailSpec`: the number of strings of bytes on which a sampler panics | a staircase of rectangles inside the disc for the accepted pairs (rounding is monotone, so no error terms), a recurrence on the number of pairs for the exact counts, and the union bound over the generators of a call |
| C113 | `Lwe/Kinds`: generation of LWE and GLWE keys of the four kinds, LWE encryption in both builds; the decryption of `Session/Decrypt` | the values by induction on the samplers and with the bound of C91 for the standard deviation of gaussian keys; the debug build by comparing the checked and the wrapping sum of products; the count of usable masks as a product over the coefficients |
| C114 | `Ntt/Glwe`: the two fills of `backends/ntt/private/crypto/glwe/ntt.rs` over the transforms of `Ntt/Model` | C34 cancels the transforms polynomial by polynomial, C38 bounds the two modulus switches; the decrypted coefficients by the smallness of the difference of the phases |
| C115 | `Lwe/Lists`: `keyswitch_list` in both builds, with the keyswitch of `Lwe/Model`; list encryption and decryption of `Lwe/Model` and `Session/Decrypt` | induction on the two lists of ciphertexts; C16 for each ciphertext |
| C116 | `Numeric/Bits`: `to_bits_string` with the insertions of spaces in order; the formatting of the standard library is taken at its specification | induction on the number of insertions |
| C117 | `Csprng/Stream`: the loop of the program of concrete-csprng, on the generator of `Csprng/Model`; the seed and the standard output are external | the invariant of C01, induction on the turns of the loop |
| C118 | `Fft/Ggsw`: `fill_with_backward_fourier` and the discarding conversion from the Fourier domain, on the floats of `Fft/Model`; concrete_fft and `f64::sin_cos` enter through `PlanAccurate` and `SinCosAccurate`, as in C63 | the error analysis of C63 with one forward and one inverse transform and no product; exactness by rounding |
| C119 | `Session/SeededGgsw`: encryption and expansion of seeded GGSW (and expansion of seeded GLWE) ciphertexts that build their generators from the compression seed and the seeder | C17, C18 and C26 on the generators made from the seeds; the masks as explicit bytes of the table of the seed |
| C120 | `Lwe/Multisums`: `fill_with_multisums_with_biases` with its debug checks and panics; `decryptLweList` of `Lwe/Model` | induction over the four zipped lists, each step being C14 |

## 4. Trusted base

* Lean 4.33.0's kernel.
* The axioms `propext`, `Classical.choice`, `Quot.sound` only; AXIOMS.md lists them per theorem. No axiom
  is added, there is no `sorry`, `native_decide` or `bv_decide`. `decide +kernel` (kernel evaluation) is
  used for concrete witnesses and for the finite shipped tables of C36.
* Mathlib's definitions used in statements (`CommRing`, `BitVec`, `AdjoinRoot`, `Polynomial`, `List.Perm`).
* The faithfulness of the transcription in the model files. Every definition cites its source lines and
  states its simplifications.
* Semantics of Rust assumed: integer arithmetic wraps in release builds and panics in debug builds;
  shift amounts are masked in release builds; slices panic out of bounds; iterators of `std`, `rayon`
  and `concrete_csprng` yield their elements in index order and write disjoint parts.

External code that enters as a parameter:

| code | how it enters |
|------|---------------|
| crate `aes` (software generator) | assumed to implement FIPS 197 in `C53_soft` |
| AES-NI and ARM instructions | modelled after the manuals of Intel and ARM (Aes/Model) |
| `concrete_fft` plans | functions with the hypothesis `PlanAccurate` (relative error `eps`, roots in any order) |
| `f64::sin_cos` | a function with the hypothesis `SinCosAccurate` (error `2^-52`) |
| AVX2, FMA, AVX-512 instructions | modelled after the Intel manual, lane by lane (Fft/Model, Fft/Simd) |
| `RwLock`, `OnceCell`, `HashMap` of the plan cache | modelled by their documented semantics (Fft/Cache); steps are atomic and sequentially consistent |
| crate `dyn_stack` 0.8 | modelled by its documented semantics (Scratch/Model): alignment, rounding, checked sizes |
| Gaussian sampling (`f64`) | an arbitrary function of the bytes read that may reject a draw; C91 uses the IEEE model of the sampler |
| `f64::ln` (C91) | a parameter; hypothesis `LnAccurate`: relative error at most 2^-50 for numbers between 0 and 1 (glibc documents less than 1 ulp) |
| `f64::powi(2)` (C91) | one product, rounded once (the Rust documentation leaves the precision open) |
| `bincode` | its documented default layout (fixed-size little-endian integers, `u64` lengths), written out in Serde/Model |
| serialization of a Fourier buffer (`concrete_fft::Plan`) | C42: a parameter with its own round trip property; C84: a common format of the coefficients in a standard order (`Wire`), and each plan translates from and to its own order (`Order`) |
| rayon | arbitrary schedule of the iterations |
| seeders | an arbitrary 128-bit seed |
| CUDA runtime | allocations that fit succeed, copies are complete after synchronisation, a launch without blocks, with too many threads or too much shared memory is refused (`Cuda/Model`, `Cuda/Kernels`) |
| Boolean gates of CUDA (C90) | the asynchronous copies from arrays of the host that are released right after are taken as complete when the copy returns (pageable memory); the functions are declared in boolean_gates.h and not bound in Rust; the two Fourier parts of the bootstrap enter as in C80 (`Accurate`) |
| CUDA threads | every order of the threads of a launch; kernels with shared memory: every interleaving that respects each thread and the barriers |
| heap allocator | any function returning an address that is not null, aligned and not in use, or aborting (`Ffi/Model`) |
| `bincode::serialize` (C interface) | the returned vector has no spare capacity (`C73_capacity_needed` shows it is needed) |
| text of concrete-core-ffi | translated statement by statement by `tools/ffi_table.py`, which refuses statements it does not know |
| CUDA cooperative launch | `grid.sync` holds a block until all blocks have reached it; memory is sequentially consistent between the blocks; all blocks make progress (`Cuda/Barrier`) |
| low latency bootstrap | what a block computes between two accesses to the join buffers is a parameter (`Low.Kernel`); accesses to one polynomial of the join buffer are one step |
| content of allocated device memory | any (`junk` in `Cuda/PbsTables`) |
| arithmetic on doubles on the GPU | IEEE 754, rounded to nearest even, without contraction into fused operations (`Cuda/Switch`; a fused operation could not change the result here because the operations concerned are exact) |
| memory of the threads of a CUDA block | one access at a time, in some order (sequential consistency); the proofs use only that places are not accessed by two threads between two barriers, one of them writing (`Cuda/ThreadLemmas`) |
| literals of twiddles.cuh | copied by tools/twiddles.py, which reads the decimal digits of the source as integers; 33 digits after the point are kept |
| Fourier transform of the GPU in double precision | IEEE 754, rounded to nearest even; at each place of the source the compiler may or may not fuse a product with a sum (`Contract`, a parameter of C83), the same choice being made at the places of the kernels where the same function is inlined, and for all calls; literals are rounded to nearest; `floor`, `__double2uint_rn`, `ldexp` as documented; in C80 and C81 the transform is a parameter with the hypothesis `Accurate` on its error, which C83 proves |

## 5. What is modelled and what is not

`tools/coverage.py` prints the list function by function. In summary:

Modelled: concrete-csprng `generators/aes_ctr/*` and the block ciphers of `generators/implem`; concrete-core `commons/math/{random,decomposition,
polynomial,tensor}`, `commons/crypto/{lwe,glwe,ggsw,gsw,bootstrap,secret}` (algorithms), `backends/ntt/private`,
`backends/fft/private/math/fft` (all but serialization), `backends/fft/private/crypto` (bootstrap, ggsw, wop_pbs), the default engine's
linear operations, encoders, public keys, key transformations and vector operations, all `perform_generic_checks` of
`specification/engines`, the serialization engines; concrete-cpu (`linear_op.rs`, `keyswitch.rs`, `bootstrap/mod.rs`, `wop_pbs.rs`); the CUDA backend's conversions and
linear operations and keyswitches, with their kernels; memory layout and block communication of the CUDA bootstraps; concrete-core-ffi as to memory and return codes.

Views: the engines implement each function several times, for owned entities, views and mutable views, and for 32 and 64 bits. Each function is modelled
once. A textual comparison of the 585 implementations, up to the names of the types, finds the variants equal, except where they are modelled apart: floating point
cleartexts, the two configurations of encoders, the versions of the serialization formats, the directions of the CUDA conversions, and the two directions of the
conversion of GGSW ciphertexts of the Fourier engine (C108, C118).

Not modelled: the rest of the `f64` code as IEEE arithmetic (`concrete_fft`; concrete-npe, whose formulas are modelled over exact rationals, without tensor product, relinearization, multiplication, most significant bits and number of noise bits);
the wrapping of the 32-bit products in the sizes of its buffers; the wasm wrappers of the engines (concrete-core-wasm), and which engine function and arguments a C function uses; the functions of concrete-cpu `lib.rs`, which are `todo!()`;
hardware and operating system entropy sources; memory allocation outside of scratch stacks and `unsafe` aliasing;
timing side channels and the cryptographic hardness of LWE; test, benchmark and fixture crates.

## 6. Disagreements between the code and its documentation

Each is a theorem with a concrete witness. Where a property is violated the manifest says `partial` and a
`_partial` theorem states what does hold.

| property | finding | theorem |
|----------|---------|---------|
| C01 | debug builds panic (counter overflow) when the bound lies in the last 7 AES blocks | `Csprng.C01_debug_panics_near_table_end` |
| C03, C05 | a fork whose children x bytes overflows `usize` is granted in release builds and reuses bytes | `Csprng.C03_violated_by_overflowing_fork`, `C05_violated_by_overflow` |
| C05 | a fork running over the end of the table wraps around | `Csprng.C05_violated_by_table_wrap` |
| C08 | with base_log * level = word size, which key generation accepts, rounding is wrong in release builds | `Decomp.C08_boundary_precision_release_wrong` |
| C11 | fill_tensor_with_recompose adds to the previous content | `Decomp.C11_violated_by_accumulation` |
| C12, C21 | ternary keys (-1 coefficients) panic in debug builds | `Lwe.C12_debug_ternary_panics`, `Poly.C21_debug_ternary_panics` |
| C14 | the discarding affine transformation adds to the previous content of its output | `Lwe.C14_violated` |
| C18 | parallel and sequential list encryption draw different noise; an empty list panics in parallel | `Lwe.C18_lwe_list_noise_differs`, `C18_empty_list_panics` |
| C20 | uniform sampling of 0 least significant bits returns arbitrary words in release builds | `Random.C20_zero_lsb_release_wrong` |
| C22 | Karatsuba multiplication never ends for sizes below 64 | `Poly.C22_small_sizes_diverge` |
| C26 | in-place trivial GGSW encryption does not clear the bodies | `Glwe.C26_trivial_violated` |
| C29 | the modulus switch overflows when 2N = 2^(w-1) | `Pbs.C29_limit_overflow` |
| C38 | 32-bit NTT: digits of base 2^15 and above are not lifted exactly | `Ntt.C38_digit_violated` |
| C40 | overflowing products, remainders by zero, wrong variants, unchecked parameters | `Engine.C40_*_violated` |
| C41 | `is_ordered` is inverted | `Engine.C41_violated` |
| C42 | an unsupported version with unknown content reports a deserialization error; malformed Fourier entities panic | `Serde.C42_version_violated`, `C42_fourier_malformed_panics` |
| C44 | vertical packing of 32-bit words computes the number of layers from 64 | `Wop.C44_u32_debug`, `C44_u32_release_violated` |
| C45 | bit extraction with delta_log = 0 | `Wop.C45_delta_zero_panics` |
| C48 | vector by cleartext multiplication leaves stale ciphertexts in a longer output | `Engine.C48_mul_cleartext_violated` |
| C50 | a failing fork of the encryption generator can advance the mask stream | `Random.C50_violated` |
| C52 | GSW encryption panics in debug builds for messages not below the base | `Gsw.C52_debug_overflow` |
| C54 | messages up to max + margin are accepted; beyond max + margin/2 they decode to min | `Encode.C54_violated_beyond_max` |
| C54 | with 54 bits of precision or more the upper bound decodes to the lower one | `Encode.C54_violated_high_precision` |
| C55 | `from_torus` saturates just below 1/2 and at -1/2: not the closest element | `Encode.C55_violated_below_half`, `C55_violated_negative_half` |
| C56 | NaN bounds and a radius below the resolution of the center panic; precision and padding are not checked against the scalar width; decoding a vector drops components silently | `Encode.C56_violated_*` |
| C58 | creating a vector of LWE ciphertexts does not check that the length is a multiple of the LWE size: panic in debug builds, truncated last ciphertext in release builds; a null polynomial size panics | `Entity.C58_violated_lwe_vector`, `C58_violated_null_polynomial_size` |
| C61 | a default engine and a parallel engine made from the same root seed use the same stream, one for secret keys and the other for public masks: the low bits of the first mask bytes published by the parallel engine are the bits of the first secret key of the default engine | `Session.C61_shared_stream`, `C61_key_leak` |
| C63, C64 | with AVX-512 (feature `backend_fft_nightly_avx512`) the conversion of floats to 64-bit integers negates (the mask is set for positive numbers): 64-bit external products and bootstraps subtract instead of adding | `Fft.C63_avx512_subtracts`, `C63_avx512_violated`, `C64_float_to_int_avx512_violated` |
| C64 | the vectorised loops ignore what remains after the last full block; `Fft::new` does not check the size (debug assertions only) | `Fft.C64_small_sizes_violated` |
| C66 | vertical packing announces its scratch memory for the GLWE dimension of the bootstrap key and uses that of the keyswitch keys; the checks accept different ones | `Scratch.C66_verticalPacking_violated` |
| C67 | the checks of the circuit bootstrap want level * (k+1) keys, key generation makes k+1 and the function itself needs k+1: with two levels or more generated keys are rejected, and any accepted list of keys panics | `Wop.C67_violated`, `C67_never` |
| C68 | `concrete_cpu_add_plaintext_lwe_ciphertext_u64` adds the plaintext to every coefficient, mask included: the phase changes by p(1 - sum of the key) | `Capi.C68_add_plaintext_partial`, `C68_add_plaintext_violated` |
| C68 | the assertion of `concrete_cpu_extract_bit_lwe_ciphertext_u64` on the number of bits is inverted: every valid call panics, and in debug builds no call returns | `Capi.C68_extract_bit_violated`, `C68_extract_bit_never` |
| C68 | the C vertical packing computes the length of the packing keyswitch keys with the GLWE dimension instead of the GLWE size: one key of k+1 is missing, debug builds always panic, release builds leave the last rows of the GGSW unwritten | `Capi.C68_vertical_packing_keys_violated`, `C68_vertical_packing_never`, `C68_vertical_packing_unwritten` |
| C68 | (not a theorem) key generation, encryption and decryption of concrete-cpu are `todo!()`; the scratch function of the vertical packing takes `small_lut_size` and `small_lut_count` in the other order than the function | |
| C69 | vectors of LWE ciphertexts, plaintexts and cleartexts come back from the GPUs unchanged only if the number of GPUs divides their length: with fewer elements than GPUs the way back panics, with a large remainder the way to the GPUs panics, with a small one the last elements are overwritten by the first ones of the last GPU | `Cuda.C69_few_elements_violated`, `C69_large_remainder_violated`, `C69_small_remainder_violated`, `C69_roundtrip_iff` |
| C69 | an empty vector panics; a vector of 2^32 words or more is written beyond its allocation (length truncated to 32 bits) | `Cuda.C69_empty_violated`, `C69_large_vector_violated` |
| C69 | with fewer elements than GPUs the check of the free memory checks nothing | `Cuda.C69_memory_check_violated` |
| C70 | with fewer ciphertexts than GPUs the linear operations terminate the process | `Cuda.C70_few_ciphertexts_violated` |
| C71 | the keyswitch kernel has a data race: thread 0 stores the body in shared memory while the thread that owns this cell zeroes it, without a barrier in between; unless the output dimension is a multiple of 128, on some schedules the result loses the body of the input | `Cuda.C71_body_lost_violated`, `C71_keyswitch_outcomes` |
| C71 | with fewer ciphertexts than GPUs, or an output dimension beyond the shared memory of a block, the keyswitch terminates the process | `Cuda.C71_refused_violated` |
| C72 | the packing keyswitch on the GPUs packs nothing: with two ciphertexts or more it writes one GLWE ciphertext per input after the single output ciphertext, and from the other GPUs | `Cuda.C72_many_violated` |
| C72 | with fewer ciphertexts than GPUs, or `(k+1)N < 256`, the packing keyswitch returns with the output unchanged; otherwise the last `(k+1)N % 256` words are unchanged | `Cuda.C72_unchanged_violated`, `C72_remainder_violated` |
| C73 | the C functions that consume a key free it even when the engine fails, return 1 and leave the pointer of the caller non-null: destroying it is a double free, and a failure before the key is taken looks the same | `Ffi.C73_transform_violated` |
| C74 | checked deserialization functions do not check the pointer of the `BufferView`: null is undefined behaviour | `Ffi.C74_view_violated` |
| C75 | when only a part of its arrays fits in the shared memory, the low latency bootstrap of CUDA places the rotated accumulator of its last block over the join buffer of the first ciphertext | `Cuda.C75_low_latency_violated` |
| C76 | the low latency bootstrap of CUDA has a data race from two levels on: a `grid.sync` is missing between the reads of the join buffer at the end of an iteration and its overwriting in the next; some schedules give another result | `Cuda.Low.C76_race_violated`, `C76_result_violated` |
| C77 | the CUDA bootstraps of vectors never write the vector that says which lookup table belongs to which ciphertext: the tables used are whatever the device memory held, or memory outside of the tables | `Cuda.C77_tables_violated`, `C77_overrun_violated` |
| C77 | written as meant, this vector would still make the low latency bootstrap use the tables 0, 1, … on every GPU, although the ciphertexts are numbered across the GPUs | `Cuda.C77_low_latency_filled_violated` |
| C78 | the modulus switch of the CUDA bootstraps converts 64-bit words to doubles, which rounds twice: some words are rotated by one more than the nearest exponent, and one more than on the CPU | `Cuda.C78_switch_64_violated` |
| C79 | the CUDA bootstraps convert the digits of the decomposition to `int32_t`; the base of the decomposition is not bounded, and with a base of 33 bits or more (64-bit words) digits lose their high bits: the result can be off by half of the torus | `Cuda.Thr.C79_prepare_violated` |
| C83 | on 32-bit words the CUDA bootstraps divide the key by `2^32 - 1` and multiply the fractional part of the result by `2^32 - 1`, so that the sums of products are computed modulo `2^32 - 1` in the place of `2^32`: a coefficient whose exact value is `c` is wrong by about `c / 2^32` units | `Cuda.Nsm.C83_modulus_violated` |
| C83 | `add_to_torus` decides the rounding of the second coefficient with the integer part of the value in the place of that of the scaled value (functions.cuh:189), and rounds a value that was already rounded: up to two units of error, which is included in the bound of C83 | comment of `Cuda.Nsm.torusWord` |
| C85 | the CMUX tree of CUDA reads the first bit as the least significant one of its part of the index, the CPU as the most significant one: with two bits or more beyond `log2 N` the two backends select different entries of the same tables (the fixture has none beyond) | `Cuda.Vp.C85_order_violated`, `C85_vertical_packing_partial` |
| C85 | the CMUX of the vertical packing of CUDA truncates the difference in the place of rounding it: the rounding term of the error doubles | `Cuda.Vp.C85_rounding_violated` |
| C85 | with fewer than `log2 N` input bits the number of layers wraps around to almost `2^32` and the shifts are undefined; the checks do not compare the number of inputs with the size of the tables | `Cuda.Vp.C85_few_bits_violated` |
| C85 | (not a theorem) the checks of the circuit bootstrap and vertical packing test the level count twice and never the base log, so that a null level count is reported as `NullDecompositionBaseLog` | |
| C86 | with two GPUs or more the circuit bootstrap and vertical packing of CUDA gets the vectors of the first GPU and the numbers of ciphertexts of all of them: it reads and writes beyond the vectors | `Cuda.Cbs.C86_multi_gpu_violated` |
| C86 | a decomposition of the GGSWs with the full precision of the words passes the checks and makes the GPU shift by a negative number | `Cuda.Cbs.C86_full_precision_violated` |
| C86 | more than 65535 rows (inputs times levels times GLWE size) are a launch with too many blocks, which ends the process | `Cuda.Cbs.C86_many_inputs_violated` |
| C86 | (not a theorem) the GPU uses the GLWE dimension and the polynomial size of the bootstrap key for the packing keyswitch keys and the tables too; the checks compare only the products of the two | |
| C87 | the indexes of the tables of the circuit bootstrap of CUDA are written at another place than they are read, unless they fill a multiple of 16 bytes (inputs times levels even for 64-bit words): `size + size % 16` is not a rounding to a multiple of 16. The first bootstrap then uses an index that was never written and the others those of their predecessors | `Cuda.Wm.C87_indexes_violated` |
| C87 | `log2 N` bits exactly with a shared memory below the need of a CMUX, or fewer bits, make the sizes of the buffers depend on a shift by 31 or more | `Cuda.Wm.C87_no_layer_violated` |
| C87 | with 32-bit words an odd number of words in the first part of the buffer misaligns the arrays of `double2` | `Cuda.Wm.C87_alignment_32_violated` |
| C87 | if the shared memory is too small for a transform (N = 8192 with 48 KB), the transform of the GGSWs uses a byte of the buffer as an address (`(double2 *)device_mem[...]` without `&`) | `Cuda.Wm.C87_fft_memory_violated` |
| C87 | the bit extraction of the library with two samples or more writes beyond its buffer (the engine asks for one) | `Cuda.Wm.C87_extract_violated` |
| C87 | the wop-PBS of the library sets other bytes to zero than those of the masks of the table of the bit extraction, which is then garbage if the extracted bits take more memory than the bootstrap | `Cuda.Wm.C87_wop_violated` |
| C87 | (not a theorem) the buffer of the transform has room for one block, and blocks are `N` bytes apart although each one uses `8 N` bytes | |
| C88 | the bit extraction of CUDA writes beyond its output when there are two GPUs or more and two bits or more: the first vector holds only a part of the ciphertexts | `Cuda.Be.C88_multi_gpu_violated` |
| C88 | two bits or more of an encryption at position 0 (`delta_log = 0`) need a shift by `0u - 1`: no defined result, although the checks accept it (the CPU panics in debug builds, C45) | `Cuda.Be.C88_no_padding_violated` |
| C88 | for a small key whose length is not a multiple of 128 the race of C71 makes an extracted bit wrong by the shifted body of the input | `Cuda.Be.C88_body_lost_violated` |
| C89 | the wop-PBS of CUDA with two bits or more above `log2 N` reads the entry of another message: the message `N` reads the entry `2^(r-1) N` (consequence of C85) | `Cuda.Wp.C89_order_violated` with `Cuda.Wp.C89_cuda_64_partial` |
| C90 | the XOR and XNOR gates of the CUDA library do not release the device array of the cleartexts (`count` words per call) | `Cuda.Bg.C90_leak_violated` with `Cuda.Bg.C90_gates_partial` |
| C90 | the Boolean gates of the CUDA library with an LWE dimension that is not a multiple of 128 can lose the body of every result (consequence of C71); with no ciphertext they terminate the process | `Cuda.Bg.C90_body_lost_violated`, `Cuda.Bg.C90_empty_violated` |
| C91 | a negative or NaN variance and a NaN standard deviation are accepted as noise parameters, and encryption then adds no noise at all | `Random.Gauss.C91_invalid_violated` |
| C94 | a variance turned into a standard deviation and back changes (2 gives another number); outside of the range a standard deviation becomes a zero or infinite variance | `Random.Disp.C94_variance_round_trip_violated`, `Random.Disp.C94_range_violated` |
| C95 | `decrypt_lwe_ciphertext` returns a `Result` but compares no dimension: with a key of another dimension a release build returns `Ok` of a value computed from the common prefix, a debug build panics; the discarding and vector decryptions return an error | `Session.C95_unchecked_dimension_violated` |
| C97 | the estimators of the weighted sum and of the multiplication by an integer square the weight in the integer type: a weight of 2^16 in 32 bits gives a panic in a debug build and an estimate of 0 in a release build | `Npe.C97_weight_overflow_violated` with `Npe.C97_weighted_sum`, `Npe.C97_integer_multiplication` |
| C98 | the keyswitch estimate is not the variance for two levels or more: ties between digits are resolved by the next digit, which makes the digits above the lowest one smaller; the estimate is larger by `n σ² Σ_j 1/4 Σ_{i<j} (-1/B)^i` (never smaller) | `Npe.C98_keyswitch` |
| C99 | the external product estimate uses the squared mean of the rounding errors of the last coefficient; with a binary key the other coefficients have a larger mean error, and the variance of the constant coefficient exceeds the estimate (one level, GLWE dimension 1: by (N-1)/16 units of the last place squared, a small amount) | `Npe.C99_constant_coefficient_violated` with `Npe.C99_external_product` |
| C101 | the CMux estimate adds the noise of the first ciphertext twice (once in the difference, once when it is added back) as if the two were independent: the selected message has this noise at most once, so the estimate is too large by its variance (never too small for centred keys) | `Npe.C101_cmux` |
| C102 | the relinearization estimate computes the rounding term with 2^(2 level) in place of 2^(2 base_log level): it is the rounding noise of a decomposition with base 2, whatever the base log, and too large for every base log from 2 | `Npe.C102_relinearization_violated` |
| C103 | `random_uniform_with_zeros` with probability 1 does not always give zero, although its documentation asserts it: draws from 2^32 - 128 on are rounded to 1.0, which is not below the probability, and a uniform value is returned | `Random.C103_probability_one_violated` |
| C105 | the checked trivial encryption of a GGSW ciphertext has no check on the decomposition parameters: with `b l > w` debug builds panic and release builds return a ciphertext whose levels are no gadget values | `C105_trivial_ggsw_violated` |
| C107 | the bytes of an LWE secret key are accepted as an LWE ciphertext, a plaintext vector or a cleartext vector with the same words (likewise GLWE secret keys) | `Serde.C107_secret_key_violated` |
| C107 | the bytes of a 64-bit entity with at least 12 words are accepted by every 32-bit kind | `Serde.C107_width_violated` |
| C107 | dimensions read from bytes are not checked: the count of an accepted LWE ciphertext vector of size zero panics | `Serde.C107_dimensions_violated` |
| C109 | the bit extraction with delta 0 and at least two bits passes its checks and panics in debug builds (subtraction below zero) | `Wop.C109_extract_bits_violated` |
| C109 | the circuit bootstrap with vertical packing passes its checks and panics in debug builds for a base log of zero (the level is checked twice in its place), for `b l = w`, without inputs, and with a wrong number of keys | `Wop.C109_packing_violated` |
| C109 | the same call with an empty output vector divides by zero in its checks, in both builds | `Wop.C109_no_output_violated` |
| C109 | the same call with 32-bit words never succeeds in a debug build | `Wop.C109_u32_violated` |
| C109 | the same call does not check that the bootstrap key and the packing keys have the same polynomial size, although one transform, of the size of the bootstrap key, serves both | (not a theorem) |
| C102 | the tensor product estimate squares `1 + k N E(s)` where the mean of the unreduced phase `b - Σ a s` is `(k N E(s) - 1) / 2`: it is the moment of the sum, too large for keys with a positive mean; and it adds 1/12 for the rounding of the body, `1 / (12 delta^2)` more than its variance | `Npe.C102_tensor_sign_violated`, `Npe.C102_tensor_rounding` |
| C112 | the parallel encryption of a list and the generation of bootstrap keys panic on some strings of noise bytes (fewer than 2^-96 of them per LWE ciphertext) | `Random.C112_lwe` |
| C113 | in debug builds, LWE encryption under a ternary key panics for all masks but 2 in 2^w for each coefficient -1 (same cause for gaussian and uniform keys) | `Lwe.Kinds.C113_debug_ternary_violated` |
| C116 | blocks of a length that does not divide the precision: the last block takes the remainder as well (3 asked for 8 bits gives blocks of 3 and 5; 5 asked gives one block of 8) | `Numeric.C116_blocks_violated` |
| C117 | at the end of the table (`2^132 - 2` bytes) the program does not stop: it writes the last 16 bytes again and again | `Csprng.C117_repeats_violated` |
| C120 | the weighted sums of a list are added to the previous content of the output, documented as "fills"; weights and biases for some of the outputs only are accepted in both builds and the other outputs keep their content | `Lwe.C120_violated_content`, `Lwe.C120_violated_count` |
