/-
Model of the memory of the CUDA bootstraps: the sizes of the buffers that the host allocates and the places
where the blocks of the kernels put their polynomials.

Source: /repo/concrete-cuda/cuda/src/bootstrap_amortized.cuh (`amortized.cuh`) and bootstrap_low_latency.cuh
(`low_latency.cuh`), also bootstrap_amortized.cu and bootstrap_low_latency.cu.

Sizes and positions are bytes. `T` is `sizeof(Torus)`, `N` the polynomial size, `k` the GLWE dimension, `l`
the number of levels, `n` the number of ciphertexts of one GPU and `sm` the shared memory of a block as the
host was told (`max_shared_memory`). The size of a `double2` is 16. Products of `uint32_t` wrap at `2^32`
(`u32`); products with a `sizeof` are 64 bits wide and are not wrapped here.
-/
namespace Verif.Cuda

/-- A value of type `uint32_t`. -/
def u32 (x : Nat) : Nat := x % 2 ^ 32

/-- The polynomial sizes for which the kernels exist (bootstrap_amortized.cu:40-68, 75-103,
bootstrap_low_latency.cu, the `switch` statements); with another size nothing is launched. -/
def pbsSizes : List Nat := [256, 512, 1024, 2048, 4096, 8192]

/-- The three kernels, polynomial/parameters.cuh `sharedMemDegree`: all the polynomials of a block in the
global memory, only the Fourier accumulator in the shared memory of the block, or all there. -/
inductive SmMode where
  | noSm
  | partialSm
  | fullSm
  deriving DecidableEq, Repr

/-- The memory that holds a polynomial: the shared memory of a block of the grid, or the scratch buffer. -/
inductive Space where
  | shared (block : Nat)
  | scratch
  deriving DecidableEq, Repr

/-- A range of bytes, and the alignment its elements need. -/
structure Region where
  space : Space
  start : Nat
  bytes : Nat
  align : Nat
  deriving DecidableEq, Repr

/-! ### Amortized bootstrap: one block per ciphertext -/

/-- amortized.cuh:214-223 `get_buffer_size_full_sm_bootstrap_amortized`. -/
def amortizedFull (T N k : Nat) : Nat :=
  T * N * u32 (k + 1) + T * N * u32 (k + 1) + 16 * N / 2 + 16 * N / 2 * u32 (k + 1)

/-- amortized.cuh:225-229 `get_buffer_size_partial_sm_bootstrap_amortized`. -/
def amortizedPart (N : Nat) : Nat := 16 * N / 2

/-- amortized.cuh:324-347, which kernel `host_bootstrap_amortized` launches. -/
def amortizedMode (T N k sm : Nat) : SmMode :=
  if sm < amortizedPart N then .noSm else if sm < amortizedFull T N k then .partialSm else .fullSm

/-- amortized.cuh:231-249 `get_buffer_size_bootstrap_amortized`, the size of the scratch buffer. -/
def amortizedScratch (T N k n sm : Nat) : Nat :=
  let mem := if sm < amortizedPart N then amortizedFull T N k * n
    else if sm < amortizedFull T N k then (amortizedFull T N k - amortizedPart N) * n else 0
  mem + mem % 16

/-- amortized.cuh:325-347, the dynamic shared memory of a block. -/
def amortizedShared (T N k sm : Nat) : Nat :=
  match amortizedMode T N k sm with
  | .noSm => 0
  | .partialSm => amortizedPart N
  | .fullSm => amortizedFull T N k

/-- amortized.cuh:325-347, the argument `device_memory_size_per_sample`. -/
def amortizedPerSample (T N k sm : Nat) : Nat :=
  match amortizedMode T N k sm with
  | .noSm => amortizedFull T N k
  | .partialSm => amortizedFull T N k - amortizedPart N
  | .fullSm => 0

/-- The arrays of a block of the amortized kernel. -/
inductive AmortizedName where
  | accumulator
  | rotated
  | resFft
  | fft
  deriving DecidableEq, Repr

/-- amortized.cuh:62-82, where block `b` puts its arrays. The lengths are the indexes that the kernel uses:
`(k + 1) N` words for the accumulators (lines 94-121), `(k + 1) N / 2` and `N / 2` `double2` for the Fourier
arrays (lines 126-132, 141-195). -/
def amortizedRegion (T N k sm b : Nat) : AmortizedName → Region :=
  let mode := amortizedMode T N k sm
  let space : Space := if mode = .fullSm then .shared b else .scratch
  let selected := if mode = .fullSm then 0 else b * amortizedPerSample T N k sm
  let acc := selected
  let rotated := acc + T * u32 (u32 (k + 1) * N)
  let res := rotated + 16 * (u32 (u32 (k + 1) * N) / (16 / T))
  fun
  | .accumulator => ⟨space, acc, T * u32 (u32 (k + 1) * N), T⟩
  | .rotated => ⟨space, rotated, T * u32 (u32 (k + 1) * N), T⟩
  | .resFft => ⟨space, res, 16 * (u32 (u32 (k + 1) * N) / 2), 16⟩
  | .fft =>
    if mode = .partialSm then ⟨.shared b, 0, 16 * (N / 2), 16⟩
    else ⟨space, res + 16 * (u32 (u32 (k + 1) * N) / 2), 16 * (N / 2), 16⟩

/-! ### Low latency bootstrap: one block per ciphertext, polynomial of the GLWE ciphertext and level -/

/-- low_latency.cuh:248-254 `get_buffer_size_full_sm_bootstrap_low_latency`. -/
def lowFull (T N : Nat) : Nat := T * N + T * N + 16 * N / 2

/-- low_latency.cuh:256-260 `get_buffer_size_partial_sm_bootstrap_low_latency`. -/
def lowPart (N : Nat) : Nat := 16 * N / 2

/-- low_latency.cuh:379-396, which kernel `host_bootstrap_low_latency` launches. -/
def lowMode (T N sm : Nat) : SmMode :=
  if sm < lowPart N then .noSm else if sm < lowFull T N then .partialSm else .fullSm

/-- low_latency.cuh:262-285 `get_buffer_size_bootstrap_low_latency`, the size of the scratch buffer: the
memory of the blocks, then the join buffer. -/
def lowScratch (T N k l n sm : Nat) : Nat :=
  let mem := if sm < lowPart N then lowFull T N * n * l * u32 (k + 1)
    else if sm < lowFull T N then (lowFull T N - lowPart N) * n * l * u32 (k + 1) else 0
  let size := mem + u32 (u32 (k + 1) * l * n * N) / 2 * 16
  size + size % 16

/-- low_latency.cuh:379-396, the dynamic shared memory of a block. -/
def lowShared (T N sm : Nat) : Nat :=
  match lowMode T N sm with
  | .noSm => 0
  | .partialSm => lowPart N
  | .fullSm => lowFull T N

/-- low_latency.cuh:379-396, the argument `device_memory_size_per_block`. -/
def lowPerBlock (T N sm : Nat) : Nat :=
  match lowMode T N sm with
  | .noSm => lowFull T N
  | .partialSm => lowFull T N - lowPart N
  | .fullSm => 0

/-- low_latency.cuh:353-361, the position of the join buffer `buffer_fft`. -/
def lowJoinStart (T N k l n sm : Nat) : Nat :=
  16 * (lowScratch T N k l n sm / 16 - u32 (u32 (k + 1) * l * n * N) / 2)

/-- low_latency.cuh:152-153, the number of a block in the grid `(l, k + 1, n)`. -/
def lowBlock (k l x y z : Nat) : Nat := x + y * l + z * l * (k + 1)

/-- The arrays of a block of the low latency kernel. -/
inductive LowName where
  | fft
  | accumulator
  | rotated
  deriving DecidableEq, Repr

/-- low_latency.cuh:145-167, where block `b` puts its arrays: `N` words for the accumulators, `N / 2`
`double2` for the Fourier accumulator. -/
def lowRegion (T N sm b : Nat) : LowName → Region :=
  let mode := lowMode T N sm
  let space : Space := if mode = .fullSm then .shared b else .scratch
  let selected := if mode = .fullSm then 0 else b * lowPerBlock T N sm
  let acc := selected + T * (16 * N / 2 / T)
  fun
  | .fft => if mode = .partialSm then ⟨.shared b, 0, 16 * (N / 2), 16⟩ else ⟨space, selected, 16 * (N / 2), 16⟩
  | .accumulator => ⟨space, acc, T * N, T⟩
  | .rotated => ⟨space, acc + T * N, T * N, T⟩

/-- low_latency.cuh:48-56, 86-98, 176-178: the polynomial `c` of level `v` in the join buffer of
ciphertext `z`. -/
def lowJoin (T N k l n sm z v c : Nat) : Region :=
  ⟨.scratch, lowJoinStart T N k l n sm +
    16 * (u32 (z * l * (k + 1) * N) / 2 + u32 (v * (k + 1) * N) / 2 + u32 (c * N) / 2), 16 * (N / 2), 16⟩

end Verif.Cuda
