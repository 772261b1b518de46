import Verif.Cuda.Model
import Mathlib.Data.List.Nodup
import Verif.Util.BitVecRing
/-
Model of the CUDA kernels for the linear operations and the keyswitch, and of the host code that launches
them.

Source: /repo/concrete-cuda/cuda/src (abbreviated `src/`) and /repo/concrete-core/src/backends/cuda/private
(`private/`).

A kernel is run by many threads. The element-wise kernels have one short body per thread, without shared
memory: a launch runs the threads one after the other in an order chosen by the scheduler. The keyswitch
kernel uses the shared memory of its block: there the model interleaves the single accesses of the threads,
in every way that respects the order of each thread and the barriers (`__syncthreads`).

C integers: the sizes below are computed by the code with 32-bit `int`s. The model computes on naturals;
where a size does not fit in an `int` the model stops with `exit` (the launch) or `overrun` (an index),
without following the wrapped values.
-/
namespace Verif.Cuda

variable {α : Type}

/-! ### Launches -/

/-- A scheduler: the order in which the threads of a launch of `m` threads run. -/
abbrev Order := Nat → List Nat

/-- The order runs every thread once. -/
def Order.Complete (σ : Order) : Prop := ∀ m, (σ m).Perm (List.range m)

/-- src/utils/kernel_dimensions.cuh:4-12 `nextPow2` (0 gives 0 in C and 1 here; the only caller takes the
maximum with 128). -/
def nextPow2 (x : Nat) : Nat :=
  let x := x - 1
  let x := x ||| (x >>> 1)
  let x := x ||| (x >>> 2)
  let x := x ||| (x >>> 4)
  let x := x ||| (x >>> 8)
  let x := x ||| (x >>> 16)
  x + 1

/-- src/utils/kernel_dimensions.cuh:16-17, the number of threads of a block, with `maxBlockSize = 512`. -/
def numThreads (n : Nat) : Nat := if n < 512 * 2 then max 128 (nextPow2 ((n + 1) / 2)) else 512

/-- src/utils/kernel_dimensions.cuh:18, the number of blocks. -/
def numBlocks (n : Nat) : Nat := (n + numThreads n - 1) / numThreads n

/-- Reading a word of a device vector. -/
def DVec.read (v : DVec α) (i : Nat) : Out (Option α) :=
  match v[i]? with
  | none => .overrun
  | some x => .ok x

/-- Writing a word of a device vector. -/
def DVec.write (v : DVec α) (i : Nat) (x : Option α) : Out (DVec α) :=
  if i < v.length then .ok (v.set i x) else .overrun

/-- A launch of `n` entries over a 1-dimensional grid, for instance src/negation.cuh:29-42. A launch with no
block or with more than 1024 threads per block is refused by CUDA, and `check_cuda_error` then terminates
the process. -/
def launch (σ : Order) (n : Nat) (kernel : Nat → DVec α → Out (DVec α)) (out : DVec α) : Out (DVec α) :=
  if 2 ^ 31 - 512 < n ∨ numBlocks n = 0 ∨ 1024 < numThreads n then .exit
  else (σ (numBlocks n * numThreads n)).foldl (fun acc t => acc.bind (kernel t)) (.ok out)

/-! ### Linear operations on one GPU; `size` is the LWE size, `count` the number of ciphertexts -/

/-- src/negation.cuh:13-22 and 24-43, with the wrapper private/device.rs
`discard_opp_lwe_ciphertext_vector`. -/
def hostNegation [Neg α] (σ : Order) (size count : Nat) (input out : DVec α) : Out (DVec α) :=
  launch σ (count * size) (fun index out =>
    if index < count * size then
      (input.read index).bind fun x => DVec.write out index (x.map fun x => -x)
    else .ok out) out

/-- src/addition.cuh:14-24 and 41-61. -/
def hostAddition [Add α] (σ : Order) (size count : Nat) (input1 input2 out : DVec α) : Out (DVec α) :=
  launch σ (count * size) (fun index out =>
    if index < count * size then
      (input1.read index).bind fun x => (input2.read index).bind fun y =>
        DVec.write out index (x.bind fun x => y.map fun y => x + y)
    else .ok out) out

/-- src/multiplication.cuh:13-25 and 27-49. -/
def hostCleartextMultiplication [Mul α] (σ : Order) (size count : Nat) (input clear out : DVec α) :
    Out (DVec α) :=
  launch σ (count * size) (fun index out =>
    if index < count * size then
      (input.read index).bind fun x => (clear.read (index / size)).bind fun y =>
        DVec.write out index (x.bind fun x => y.map fun y => x * y)
    else .ok out) out

/-- `cudaMemcpyAsync` between two vectors of a device. -/
def memcpyDevice (len : Nat) (dest src : DVec α) : Out (DVec α) :=
  if len ≤ dest.length ∧ len ≤ src.length then .ok (src.take len ++ dest.drop len) else .overrun

/-- src/addition.cuh:26-39 and 63-86: the input is copied to the output, then one thread per ciphertext
adds a plaintext to a body. -/
def hostPlaintextAddition [Add α] (σ : Order) (size count : Nat) (input plain out : DVec α) :
    Out (DVec α) :=
  if 2 ^ 31 ≤ count * size then .overrun
  else
    (memcpyDevice (count * size) out input).bind fun out =>
      launch σ count (fun p out =>
        if p < count then
          (input.read (p * size + (size - 1))).bind fun x => (plain.read p).bind fun y =>
            DVec.write out (p * size + (size - 1)) (x.bind fun x => y.map fun y => x + y)
        else .ok out) out

/-! ### The loops over the GPUs -/

/-- private/crypto/lwe/list.rs:141-155 (and 169-184, 201-216, 233-248, private/crypto/keyswitch/mod.rs:42-60):
the loop over the active GPUs; `job i samples out` is the call on GPU `i`. The number of samples is computed
with the number of available GPUs. -/
def forGpus (avail count : Nat) (job : Nat → Nat → DVec α → Out (DVec α)) :
    Nat → List (DVec α) → Out (List (DVec α))
  | i, [] => if i < activeGpus avail count then .panic else .ok []
  | i, out :: outs =>
    if i < activeGpus avail count then
      (samplesOnGpu avail count i).bind fun samples =>
        (job i samples out).bind fun out' =>
          (forGpus avail count job (i + 1) outs).bind fun rest => .ok (out' :: rest)
    else .ok (out :: outs)

/-- `d_vecs.get(gpu_index).unwrap()`. -/
def getVec (vecs : List (DVec α)) (i : Nat) : Out (DVec α) :=
  match vecs[i]? with
  | none => .panic
  | some v => .ok v

/-- private/crypto/lwe/list.rs:130-156 `execute_lwe_ciphertext_vector_opposite_on_gpu`. -/
def executeOpposite [Neg α] (σ : Nat → Order) (avail size count : Nat) (input outs : List (DVec α)) :
    Out (List (DVec α)) :=
  forGpus avail count (fun i samples out =>
    (getVec input i).bind fun v => hostNegation (σ i) size samples v out) 0 outs

/-- private/crypto/lwe/list.rs:157-185 `execute_lwe_ciphertext_vector_addition_on_gpu`. -/
def executeAddition [Add α] (σ : Nat → Order) (avail size count : Nat)
    (input1 input2 outs : List (DVec α)) : Out (List (DVec α)) :=
  forGpus avail count (fun i samples out =>
    (getVec input1 i).bind fun v1 => (getVec input2 i).bind fun v2 =>
      hostAddition (σ i) size samples v1 v2 out) 0 outs

/-- private/crypto/lwe/list.rs:187-217
`execute_lwe_ciphertext_vector_plaintext_vector_addition_on_gpu`. -/
def executePlaintextAddition [Add α] (σ : Nat → Order) (avail size count : Nat)
    (input plain outs : List (DVec α)) : Out (List (DVec α)) :=
  forGpus avail count (fun i samples out =>
    (getVec input i).bind fun v => (getVec plain i).bind fun p =>
      hostPlaintextAddition (σ i) size samples v p out) 0 outs

/-- private/crypto/lwe/list.rs:219-249
`execute_lwe_ciphertext_vector_cleartext_vector_multiplication_on_gpu`. -/
def executeCleartextMultiplication [Mul α] (σ : Nat → Order) (avail size count : Nat)
    (input clear outs : List (DVec α)) : Out (List (DVec α)) :=
  forGpus avail count (fun i samples out =>
    (getVec input i).bind fun v => (getVec clear i).bind fun c =>
      hostCleartextMultiplication (σ i) size samples v c out) 0 outs

end Verif.Cuda
