import Verif.Cuda.Kernels
/-
Model of the choice of the lookup table in the CUDA bootstraps of vectors.

Source: /repo/concrete-core/src/backends/cuda/private/crypto/bootstrap/mod.rs (`bootstrap/mod.rs`) and
/repo/concrete-cuda/cuda/src/bootstrap_amortized.cuh, bootstrap_low_latency.cuh.

What a bootstrap computes from one lookup table and one ciphertext is a parameter `boot`: `boot table ct j` is the
word `j` of the result. The model is about which table, which ciphertext and which result go together.

`w` is the number of bits of a word, `sizeIn`, `sizeLut` and `sizeOut` are the numbers of words of an input
ciphertext, of a lookup table (a GLWE ciphertext) and of an output ciphertext. Memory that was allocated and never
written holds the values of `junk`.
-/
namespace Verif.Cuda

variable {α : Type}

/-- `Vec::with_capacity`: no element, whatever the capacity. -/
def withCapacity (_ : Nat) : List Nat := []

/-- bootstrap/mod.rs:106-109 and 156-159: the loop over `iter_mut().enumerate()` overwrites every element of the
vector by its position. -/
def lutIndexes (n : Nat) : List Nat := (withCapacity n).zipIdx.map Prod.snd

/-- Reading an index on the device. -/
def lutIndex (junk : Nat → Nat) (idx : DVec Nat) (p : Nat) : Out Nat :=
  (DVec.read idx p).bind fun x => .ok (x.getD (junk p))

/-- Reading `len` consecutive words. -/
def readRange (v : DVec α) (start len : Nat) : Out (DVec α) :=
  if start + len ≤ v.length then .ok ((v.drop start).take len) else .overrun

/-- The values of the words, if all have been written. -/
def values : DVec α → Option (List α)
  | [] => some []
  | x :: xs => x.bind fun a => (values xs).map (a :: ·)

/-- bootstrap_amortized.cuh:84-88, 200-211 with `base = lwe_idx`, bootstrap_low_latency.cuh:171-174, 234-245 with
`base = 0`: the launch for `samples` ciphertexts. The product that gives the position of the table is computed with
`w` bits. Simplified: one step per word of the result, in any order. -/
def hostPbs (σ : Order) (boot : List α → List α → Nat → α) (w sizeIn sizeLut sizeOut samples base : Nat)
    (junk : Nat → Nat) (idx : DVec Nat) (luts input out : DVec α) : Out (DVec α) :=
  (σ (samples * sizeOut)).foldl (fun acc t =>
    acc.bind fun out =>
      let z := t / sizeOut
      (lutIndex junk idx (base + z)).bind fun p =>
        (readRange luts (p * sizeLut % 2 ^ w) sizeLut).bind fun table =>
          (readRange input (z * sizeIn) sizeIn).bind fun ct =>
            DVec.write out (z * sizeOut + t % sizeOut)
              ((values table).bind fun table => (values ct).map fun ct => boot table ct (t % sizeOut))) (.ok out)

/-- bootstrap/mod.rs:77-129 `execute_lwe_ciphertext_vector_low_latency_bootstrap_on_gpu`. The copy of no byte is
refused (device.cu:79) and the code is ignored: the vector on the device is unchanged, as in `copyToGpu`. `junk g` is
the content of the indexes of GPU `g`. -/
def executeLow (σ : Nat → Order) (boot : List α → List α → Nat → α) (w sizeIn sizeLut sizeOut avail count : Nat)
    (junk : Nat → Nat → Nat) (luts inputs outs : List (DVec α)) : Out (List (DVec α)) :=
  let gpus := activeGpus avail count
  forGpus gpus count (fun g samples out =>
    (copyToGpu (malloc samples) (lutIndexes samples)).bind fun idx =>
      (getVec luts g).bind fun lut => (getVec inputs g).bind fun input =>
        hostPbs (σ g) boot w sizeIn sizeLut sizeOut samples 0 (junk g) idx lut input out) 0 outs

/-- bootstrap/mod.rs:131-190 `execute_lwe_ciphertext_vector_amortized_bootstrap_on_gpu`: every GPU gets as many
indexes as there are ciphertexts; the kernel starts at `samples_on_gpu_0 * gpu_index`. -/
def executeAmortized (σ : Nat → Order) (boot : List α → List α → Nat → α)
    (w sizeIn sizeLut sizeOut avail count : Nat) (junk : Nat → Nat → Nat) (luts inputs outs : List (DVec α)) :
    Out (List (DVec α)) :=
  let gpus := activeGpus avail count
  (samplesOnGpu gpus count 0).bind fun samples0 =>
    forGpus gpus count (fun g samples out =>
      (copyToGpu (malloc count) (lutIndexes count)).bind fun idx =>
        (getVec luts g).bind fun lut => (getVec inputs g).bind fun input =>
          hostPbs (σ g) boot w sizeIn sizeLut sizeOut samples (samples0 * g) (junk g) idx lut input out) 0 outs

/-- lwe_ciphertext_discarding_bootstrap.rs:126-152, 261-287 of cuda_engine: the bootstrap of one ciphertext, on
GPU 0, with the index vector `[0]`. -/
def executeSingle (σ : Order) (boot : List α → List α → Nat → α) (w sizeIn sizeLut sizeOut : Nat)
    (junk : Nat → Nat) (lut input out : DVec α) : Out (DVec α) :=
  (copyToGpu (malloc 1) [0]).bind fun idx =>
    hostPbs σ boot w sizeIn sizeLut sizeOut 1 0 junk idx lut input out

end Verif.Cuda
