import Verif.Util.Containers
/-
Model of the host side of the CUDA backend: device vectors, transfers, and the split of a vector over
several GPUs.

Source: /repo/concrete-core/src/backends/cuda (abbreviated `cuda/`) and
/repo/concrete-cuda/cuda/src/device.cu.

A device vector is the list of its words; a word that was allocated and never written is `none`. The
type of words is a parameter, since transfers do not look at the values. CUDA calls are assumed to do
what the CUDA manual says (trusted base): an allocation that the device can hold succeeds, copies are
complete once the device has been synchronised, and a write outside an allocation is an `overrun`.
-/
namespace Verif.Cuda

/-- How a call ends: it returns, it panics (Rust), it terminates the process (`exit` in
concrete-cuda/cuda/include/device.h:47-57 `check_cuda_error`), or it accesses memory outside of a device
allocation (undefined behaviour). -/
inductive Out (α : Type) where
  | ok (a : α)
  | panic
  | exit
  | overrun
  deriving DecidableEq, Repr

/-- Sequencing of calls. -/
def Out.bind {α β : Type} : Out α → (α → Out β) → Out β
  | .ok a, f => f a
  | .panic, _ => .panic
  | .exit, _ => .exit
  | .overrun, _ => .overrun

instance : Monad Out where
  pure := .ok
  bind := Out.bind

variable {α : Type}

/-- cuda/private/vec.rs `CudaVec`: the words of one allocation on one GPU. -/
abbrev DVec (α : Type) := List (Option α)

/-- cuda/private/mod.rs:11-21 `number_of_active_gpus`. -/
def activeGpus (total count : Nat) : Nat := if count < total then min count total else total

/-- cuda/private/mod.rs:23-35 `compute_number_of_samples_on_gpu`; the division by zero panics. -/
def samplesOnGpu (gpus count idx : Nat) : Out Nat :=
  if gpus = 0 then .panic
  else .ok (count / gpus + if idx = gpus - 1 then count % gpus else 0)

/-- cuda/private/device.rs:62-76 `malloc`: the callers pass the number of elements `as u32`. -/
def malloc (elements : Nat) : DVec α := List.replicate (elements % 2 ^ 32) none

/-- cuda/private/device.rs:103-131 `copy_to_gpu`, device.cu:73-95: the size of the copy is the length of
the source; it is not compared with the length of the destination. -/
def copyToGpu (dest : DVec α) (src : List α) : Out (DVec α) :=
  if src.length ≤ dest.length then .ok (src.map some ++ dest.drop src.length) else .overrun

/-- cuda/private/device.rs:140-167 `copy_to_cpu`, device.cu:115-137: the size of the copy is the length
`len` of the destination. -/
def copyToCpu (len : Nat) (src : DVec α) : Out (List (Option α)) :=
  if len ≤ src.length then .ok (src.take len) else .overrun

/-- `slice::chunks_exact` for a chunk size `n > 0`. -/
def chunksExact (n : Nat) (l : List α) : List (List α) :=
  (List.range (l.length / n)).map fun i => block n l i

/-- `ChunksExact::remainder`. -/
def chunksRemainder (n : Nat) (l : List α) : List α := l.drop (l.length / n * n)

/-- cuda/private/crypto/lwe/list.rs:53-67, the loop over the chunks; `avail` is the number of streams,
`gpus` the number of active GPUs, `i` the index of the next chunk. -/
def sendChunks (avail gpus : Nat) (rem : List α) : Nat → List (List α) → Out (List (DVec α))
  | _, [] => .ok []
  | i, c :: cs =>
    if avail ≤ i then .panic
    else
      let data := if i = gpus - 1 then c ++ rem else c
      (copyToGpu (malloc data.length) data).bind fun v =>
        (sendChunks avail gpus rem (i + 1) cs).bind fun vs => .ok (v :: vs)

/-- cuda/private/crypto/lwe/list.rs:37-69 `copy_lwe_ciphertext_vector_from_cpu_to_gpu`, `size` words per
ciphertext; with `size = 1`, cuda/private/crypto/plaintext/list.rs:17-59 and
cuda/private/crypto/cleartext/list.rs:17-51. `chunks_exact(0)` panics. -/
def toGpus (avail size : Nat) (input : List α) : Out (List (DVec α)) :=
  let count := input.length / size
  let gpus := activeGpus avail count
  (samplesOnGpu gpus count 0).bind fun samples =>
    let dataPerGpu := samples * size
    if dataPerGpu = 0 then .panic
    else sendChunks avail gpus (chunksRemainder dataPerGpu input) 0 (chunksExact dataPerGpu input)

/-- cuda/private/crypto/lwe/list.rs:85-88 and 111-119, the loop over the chunks of the output, each
overwritten by the start of the vector of its GPU. -/
def fetchChunks (avail per : Nat) (vecs : List (DVec α)) :
    Nat → List (List (Option α)) → Out (List (List (Option α)))
  | _, [] => .ok []
  | i, c :: cs =>
    if avail ≤ i then .panic
    else
      match vecs[i]? with
      | none => .panic
      | some v =>
        (copyToCpu c.length v).bind fun c' =>
          (fetchChunks avail per vecs (i + 1) cs).bind fun rest => .ok (c' :: rest)

/-- cuda/private/crypto/lwe/list.rs:97-128 `discard_copy_lwe_ciphertext_vector_from_gpu_to_cpu` into the
words `out`; with `size = 1`, plaintext/list.rs:87-118 and cleartext/list.rs:79-110. The remainder is
copied from the last vector, starting at its first word. -/
def discardFromGpus (avail size count : Nat) (vecs : List (DVec α)) (out : List (Option α)) :
    Out (List (Option α)) :=
  (samplesOnGpu avail count 0).bind fun samples =>
    let per := samples * size
    if per = 0 then .panic
    else
      (fetchChunks avail per vecs 0 (chunksExact per out)).bind fun cs =>
        let last := chunksRemainder per out
        if samples * avail < count then
          match vecs.getLast? with
          | none => .panic
          | some v => (copyToCpu last.length v).bind fun last' => .ok (cs.flatten ++ last')
        else .ok (cs.flatten ++ last)

/-- cuda/private/crypto/lwe/list.rs:71-95 `copy_lwe_ciphertext_vector_from_gpu_to_cpu`; with `size = 1`,
plaintext/list.rs:61-84 and cleartext/list.rs:53-77. The same code on a vector of zeros. -/
def fromGpus (avail size count : Nat) (zero : α) (vecs : List (DVec α)) : Out (List (Option α)) :=
  discardFromGpus avail size count vecs (List.replicate (size * count) (some zero))

/-- lwe_ciphertext_vector_conversion.rs:70-106 and 152-173 (64 bits: 218-254, 300-321),
plaintext_vector_conversion.rs, cleartext_vector_conversion.rs: CPU to GPU, then GPU to CPU. -/
def roundTrip (avail size : Nat) (zero : α) (xs : List α) : Out (List (Option α)) :=
  (toGpus avail size xs).bind fun vecs => fromGpus avail size (xs.length / size) zero vecs

/-- glwe_ciphertext_vector_conversion.rs:81-103, lwe_keyswitch_key_conversion.rs,
lwe_private_functional_packing_keyswitch_key_conversion.rs:51-78,
lwe_circuit_bootstrap_private_functional_packing_keyswitch_keys_conversion.rs:53-81 (all in
cuda/implementation/engines/cuda_engine): the whole container on every GPU. -/
def broadcast : Nat → List α → Out (List (DVec α))
  | 0, _ => .ok []
  | avail + 1, xs =>
    (copyToGpu (malloc xs.length) xs).bind fun v =>
      (broadcast avail xs).bind fun vs => .ok (v :: vs)

/-- The same files, back: the container is read from GPU 0, `d_vecs.first().unwrap()`. -/
def fromFirst (len : Nat) (vecs : List (DVec α)) : Out (List (Option α)) :=
  match vecs with
  | [] => .panic
  | v :: _ => copyToCpu len v

/-- lwe_ciphertext_vector_conversion.rs:74-90, plaintext_vector_conversion.rs:28-42,
cleartext_vector_conversion.rs:28-42: the check of the free memory before a conversion. `bytes` is the
size of a word, `free i` the free memory of GPU `i` (device.cu:54-69). `true`: all checks pass. -/
def memoryCheck (avail size count bytes : Nat) (free : Nat → Nat) : Out Bool :=
  (List.range (activeGpus avail count)).foldl (fun acc i =>
    acc.bind fun b =>
      if b then
        (samplesOnGpu avail count i).bind fun samples => .ok (decide (samples * size * bytes ≤ free i))
      else .ok false) (.ok true)

end Verif.Cuda
