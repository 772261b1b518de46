import Verif.Cuda.Keyswitch
import Verif.Pks.Model
/-
Model of the private functional packing keyswitch of the CUDA backend.

Source: /repo/concrete-cuda/cuda/src/keyswitch.cuh (abbreviated `keyswitch.cuh`) and
/repo/concrete-core/src/backends/cuda/private/crypto/keyswitch/mod.rs.

A thread of this kernel uses only its own word of the shared memory, so a launch runs the threads one after
the other in an order chosen by the scheduler, as in `Kernels`. Sizes are naturals: the kernel computes its
indices with 64-bit integers.
-/
namespace Verif.Cuda

variable {w : Nat}

/-- keyswitch.cuh:25-87 `fp_keyswitch`: the accumulator of the thread of ciphertext `ct` and coefficient
`pos = chunk_id * 256 + tid` at the end of its loops; `keys` is the number of keys in `ksk`. -/
def fpValue (b l dimIn glweSize N keys : Nat) (input ksk : DVec (BitVec w)) (ct pos : Nat) :
    Out (Option (BitVec w)) :=
  let kskSize := (dimIn + 1) * l * glweSize * N
  let kskBlockSize := glweSize * N * l
  (List.range (dimIn + 1)).foldl (fun acc i =>
    acc.bind fun v => (DVec.read input (ct * (dimIn + 1) + i)).bind fun a =>
      (List.range l).foldl (fun acc j =>
        acc.bind fun v =>
          (DVec.read ksk (ct % keys * kskSize + i * kskBlockSize + (l - j - 1) * glweSize * N + pos)).bind fun q =>
            .ok (v.bind fun v => a.bind fun a => q.map fun q => v - gpuDigit b l a j * q)) (.ok v))
    (.ok (some 0#w))

/-- keyswitch.cuh:209-227 `cuda_fp_keyswitch_lwe_to_glwe`, with the wrapper private/device.rs:461-506: 256
threads per block, `(k+1)N / 256` blocks for each of the `samples` ciphertexts. CUDA refuses a launch with no
block, or with more than 65535 blocks in the second dimension; the code does not check for errors here, so
nothing is computed. -/
def hostFpKeyswitch (σ : Order) (b l dimIn glweSize N samples keys : Nat) (input ksk out : DVec (BitVec w)) :
    Out (DVec (BitVec w)) :=
  let threads := 256
  let blocks := glweSize * N / threads
  if blocks = 0 ∨ samples = 0 ∨ 65535 < samples then .ok out
  else
    (σ (blocks * threads * samples)).foldl (fun acc t =>
      acc.bind fun out =>
        let ct := t / (blocks * threads)
        let pos := t % (blocks * threads)
        (fpValue b l dimIn glweSize N keys input ksk ct pos).bind fun v =>
          DVec.write out (ct * glweSize * N + pos) v) (.ok out)

/-- private/crypto/keyswitch/mod.rs:90-123 `execute_lwe_ciphertext_vector_fp_keyswitch_on_gpu`. The output is
one GLWE ciphertext, on GPU 0 (private/crypto/glwe/ciphertext.rs:12-13), and its address is passed to every
GPU: a kernel of another GPU that writes to it accesses memory that is not its own (the code never enables the
access to the memory of another GPU). -/
def executeFpKeyswitch (σ : Nat → Order) (b l dimIn glweSize N keys avail count : Nat)
    (inputs ksks : List (DVec (BitVec w))) (out : DVec (BitVec w)) : Out (DVec (BitVec w)) :=
  (List.range (activeGpus avail count)).foldl (fun acc i =>
    acc.bind fun out =>
      (samplesOnGpu avail count i).bind fun samples =>
        (getVec inputs i).bind fun v => (getVec ksks i).bind fun q =>
          if i = 0 then hostFpKeyswitch (σ i) b l dimIn glweSize N samples keys v q out
          else if glweSize * N / 256 = 0 ∨ samples = 0 ∨ 65535 < samples then .ok out
          else .overrun) (.ok out)

end Verif.Cuda
