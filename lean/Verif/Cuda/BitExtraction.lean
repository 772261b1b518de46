import Verif.Cuda.CircuitBootstrap
import Verif.Cuda.Keyswitch
import Verif.Cuda.Props11
/-
Model of the bit extraction of CUDA.

Source: /repo/concrete-cuda/cuda/src/bit_extraction.cuh (`be.cuh`) and
/repo/concrete-core/src/backends/cuda/private/crypto/wopbs/mod.rs.

As in `CircuitBootstrap`, a buffer is a function from indexes to words, and a launch of a kernel is the list of the words
that its threads write, done in any order. The places of the buffers in the memory are the subject of C87.
-/
namespace Verif.Cuda.Be
open Verif.Cuda.Cbs (Sched store bodyWrites)

variable {w : Nat}

/-- The first `len` words of a buffer. -/
def first {α : Type} (mem : Nat → α) (len : Nat) : List α := (List.range len).map mem

/-- A buffer after the list `r` was written at its start. -/
def overwrite (r : List (BitVec w)) (mem : Nat → BitVec w) : Nat → BitVec w := fun i => r.getD i (mem i)

/-- be.cuh:19-36 `copy_and_shift_lwe` with `k` blocks of `N / opt` threads (233-235). -/
def shiftWrites (k N opt : Nat) (value : BitVec w) (src : Nat → BitVec w) : List (Nat × BitVec w) :=
  (List.range k).flatMap fun x => (List.range (N / opt)).flatMap fun tid =>
    ((List.range opt).map fun i => (x * N + (tid + i * (N / opt)), src (x * N + (tid + i * (N / opt))) * value)) ++
    if tid = 0 ∧ x = 0 then [(k * N, src (k * N) * value)] else []

/-- be.cuh:42-63 `copy_small_lwe` with one block of 256 threads (243-245): ciphertext `id` of the output. -/
def smallWrites (size id : Nat) (src : Nat → BitVec w) : List (Nat × BitVec w) :=
  (List.range 256).flatMap fun tid =>
    ((List.range (size / 256)).map fun i => (id * size + (tid + i * 256), src (tid + i * 256))) ++
    if tid < size % 256 then [(id * size + (tid + size / 256 * 256), src (tid + size / 256 * 256))] else []

/-- be.cuh:116-129 `fill_lut_body_for_current_bit` with one block of `N / opt` threads (261-263). -/
def fillWrites (N k opt : Nat) (value : BitVec w) : List (Nat × BitVec w) :=
  (List.range (N / opt)).flatMap fun tid => (List.range opt).map fun i => (k * N + (tid + i * (N / opt)), value)

/-- be.cuh:86-109 `add_sub_and_mul_lwe` with one block of `N / opt` threads (274-278): a value for each word that a thread
updates. Each thread uses only the words that it updates itself. -/
def updates (N k opt : Nat) (mask body : Nat → BitVec w) : List (Nat × BitVec w) :=
  (List.range (N / opt)).flatMap fun tid =>
    ((List.range (k * opt)).map fun i => (tid + i * (N / opt), mask (tid + i * (N / opt)))) ++
    if tid = 0 then [(k * N, body (k * N))] else []

/-- The buffers of the function: the arrays of be.cuh:207-226 without the indexes, and the output. -/
structure Bufs (w : Nat) where
  state : Nat → BitVec w
  shifted : Nat → BitVec w
  ks : Nat → BitVec w
  lut : Nat → BitVec w
  pbs : Nat → BitVec w
  out : Nat → BitVec w

/-- be.cuh:238-280, the last `left` iterations of the loop. `ks i o c` is the keyswitch of `c` in iteration `i` with the
previous content `o` of its output, `pbs i o c lut` the bootstrap. `none` if one of these is not modelled, or if a shift is
by a negative number (`delta_log - 1 + bit_idx` for `delta_log = 0` is a large number). The indexes of the tables are
zero (bit_extraction.cuh:172-176). -/
def loop (σ : Sched (BitVec w)) (ks : Nat → List (BitVec w) → List (BitVec w) → Option (List (BitVec w)))
    (pbs : Nat → List (BitVec w) → List (BitVec w) → List (BitVec w) → Option (List (BitVec w)))
    (N k n opt delta nbits : Nat) : Nat → Bufs w → Option (Bufs w)
  | 0, B => some B
  | left + 1, B =>
    let i := nbits - (left + 1)
    match ks i (first B.ks (n + 1)) (first B.shifted (k * N + 1)) with
    | none => none
    | some r =>
      let ksBuf := overwrite r B.ks
      let out := store (σ (smallWrites (n + 1) (nbits - i - 1) ksBuf)) B.out
      if i + 1 = nbits then some { B with ks := ksBuf, out := out }
      else if delta = 0 then none
      else
        let ksBuf := store (σ (bodyWrites 1 n (1#w <<< (w - 2)) ksBuf)) ksBuf
        let lut := store (σ (fillWrites N k opt ((0#w - 1#w) <<< (delta - 1 + i)))) B.lut
        match pbs i (first B.pbs (k * N + 1)) (first ksBuf (n + 1)) (first lut ((k + 1) * N)) with
        | none => none
        | some p =>
          let pbsBuf := overwrite p B.pbs
          let add := 1#w <<< (delta - 1 + i)
          let mul := 1#w <<< (w - delta - i - 2)
          let state := store (σ (updates N k opt (fun j => B.state j - pbsBuf j)
            fun j => B.state j - (pbsBuf j + add))) B.state
          let shifted := store (σ (updates N k opt (fun j => (B.state j - pbsBuf j) * mul)
            fun j => (B.state j - (pbsBuf j + add)) * mul)) B.shifted
          loop σ ks pbs N k n opt delta nbits left ⟨state, shifted, ksBuf, lut, pbsBuf, out⟩

/-- be.cuh:188-281 `host_extract_bits` for one ciphertext; returns the output buffer. `B` are the previous contents of the
buffers. -/
def hostExtractBits (σ : Sched (BitVec w)) (ks : Nat → List (BitVec w) → List (BitVec w) → Option (List (BitVec w)))
    (pbs : Nat → List (BitVec w) → List (BitVec w) → List (BitVec w) → Option (List (BitVec w)))
    (N k n opt delta nbits : Nat) (B : Bufs w) (lweIn : Nat → BitVec w) : Option (Nat → BitVec w) :=
  if w ≤ delta ∨ w < nbits + delta then none
  else
    let state := fun i => if i < k * N + 1 then lweIn i else B.state i
    let shifted := store (σ (shiftWrites k N opt (1#w <<< (w - delta - 1)) lweIn)) B.shifted
    (loop σ ks pbs N k n opt delta nbits nbits { B with state := state, shifted := shifted }).map (·.out)

/-- private/crypto/wopbs/mod.rs:52-91 and cuda_engine/lwe_ciphertext_discarding_bit_extraction.rs:133-162: the vector of the
first GPU is the output. All the buffers are set to zero (be.cuh:172-176). The output buffer is the vector `o`; a word
that is not known is given by `junk`. -/
def executeExtractBits (σ : Sched (BitVec w)) (ks : Nat → List (BitVec w) → List (BitVec w) → Option (List (BitVec w)))
    (pbs : Nat → List (BitVec w) → List (BitVec w) → List (BitVec w) → Option (List (BitVec w)))
    (N k n opt delta nbits : Nat) (lweIn : List (BitVec w)) (outs : List (DVec (BitVec w))) (junk : Nat → BitVec w) :
    Option (Out (List (DVec (BitVec w)))) :=
  match outs with
  | [] => some .panic
  | o :: rest =>
    if o.length < nbits * (n + 1) then some .overrun
    else
      let zero : Nat → BitVec w := fun _ => 0#w
      (hostExtractBits σ ks pbs N k n opt delta nbits ⟨zero, zero, zero, zero, zero, junk⟩ fun i => lweIn.getD i 0).map
        fun out => .ok (((first out (nbits * (n + 1))).map some ++ o.drop (nbits * (n + 1))) :: rest)

/-- The keyswitch of one ciphertext (C71) as a function of lists, with the schedule `sched` of its threads. -/
def gpuKeyswitch (maxShared : Nat) (sched : List Nat) (b l dimIn dimOut : Nat) (ksk o c : List (BitVec w)) :
    Option (List (BitVec w)) :=
  match hostKeyswitch maxShared (fun _ => sched) b l dimIn dimOut 1 (c.map some) (ksk.map some) (o.map some) with
  | .ok v => v.mapM id
  | _ => none

/-- The blocks of the bootstrap of one ciphertext `c` (be.cuh:266-271, C81); `key` is the transformed bootstrap key. -/
def lowProgram (G : Am.GpuTransform w) (N k b l n : Nat) (key : List G.E) (c : List (BitVec w)) :
    Low.Block k l 1 → Grid.Prog Low.Place G.E (Low.Regs G.E (List (BitVec w))) :=
  Low.program (Am.kernel G N k b l key fun _ => c) n k l 1

/-- The state of the blocks at their start; `mem`, `fft` and `reg` are previous contents of memory. -/
def lowStart (G : Am.GpuTransform w) (N k b l n : Nat) (key : List G.E) (mem : Low.Place → G.E) (fft reg : G.E)
    (c a : List (BitVec w)) : Grid.State (Low.Block k l 1) Low.Place G.E (Low.Regs G.E (List (BitVec w))) :=
  Grid.start (lowProgram G N k b l n key c) mem fun bl =>
    ⟨Am.firstAcc N n (fun _ => a) (fun _ => c) bl.1 bl.2.1 bl.2.2, fft, reg⟩

/-- The low latency bootstrap of `c` with the table `a`, for the schedule `sched` of the blocks; low_latency.cuh:234-246 is
the sample extraction into `o`. -/
def lowBootstrap (G : Am.GpuTransform w) (N k b l n : Nat) (key : List G.E) (mem : Low.Place → G.E) (fft reg : G.E)
    (sched : List (Low.Block k l 1)) (o c a : List (BitVec w)) : Option (List (BitVec w)) :=
  if hl : 0 < l then
    Glwe.sampleExtract N (Am.accumulators hl (Grid.run (lowProgram G N k b l n key c) sched
      (lowStart G N k b l n key mem fft reg c a)) 0) o 0
  else none

end Verif.Cuda.Be
