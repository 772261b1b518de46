import Verif.Cuda.Amortized
import Verif.Cuda.FpKeyswitch
import Verif.Cuda.VerticalPacking
import Verif.Wop.Model
/-
Model of the circuit bootstrap of CUDA, and of the circuit bootstrap followed by the vertical packing.

Source: /repo/concrete-cuda/cuda/src/circuit_bootstrap.cuh (`cbs.cuh`), /repo/concrete-cuda/cuda/src/bit_extraction.cuh
and /repo/concrete-cuda/cuda/src/wop_bootstrap.cuh.

A buffer is a function from indexes to words; the places of the buffers in the memory are the subject of `WopMemory`. A
launch of a kernel that only copies is the list of the words that its threads write, with their values; the scheduler
does these writes in any order.
-/
namespace Verif.Cuda.Cbs
open Verif.Wop (addBody)

variable {w : Nat}

/-- The order in which the threads of a launch write their words. -/
abbrev Sched (α : Type) := List (Nat × α) → List (Nat × α)

/-- Each word is written as often as the threads do it. -/
def Sched.Fair {α : Type} (σ : Sched α) : Prop := ∀ ws, (σ ws).Perm ws

/-- A buffer after a list of writes. -/
def store {α : Type} (ws : List (Nat × α)) (mem : Nat → α) : Nat → α :=
  ws.foldl (fun m x => Function.update m x.1 x.2) mem

/-- Words `i len, …, (i + 1) len - 1` of a buffer. -/
def part {α : Type} (mem : Nat → α) (len i : Nat) : List α := (List.range len).map fun j => mem (i * len + j)

/-- cbs.cuh:16-36 `shift_lwe_cbs`, with 256 threads on a grid of `levels` times `inputs` blocks (172-173, 197-199). -/
def shiftWrites (levels inputs size : Nat) (value : BitVec w) (src : Nat → BitVec w) : List (Nat × BitVec w) :=
  (List.range inputs).flatMap fun y => (List.range levels).flatMap fun x => (List.range 256).flatMap fun tid =>
    let at' (i : Nat) : Nat × BitVec w := ((y * levels + x) * size + (tid + i * 256), src (y * size + (tid + i * 256)) * value)
    (List.range (size / 256)).map at' ++ if tid < size % 256 then [at' (size / 256)] else []

/-- bit_extraction.cuh:72-75 `add_to_body` with `count` blocks of one thread. -/
def bodyWrites (count dim : Nat) (value : BitVec w) (lwe : Nat → BitVec w) : List (Nat × BitVec w) :=
  (List.range count).map fun x => (x * (dim + 1) + dim, lwe (x * (dim + 1) + dim) + value)

/-- cbs.cuh:46-61 `fill_lut_body_for_cbs` with `levels` blocks of `N / opt` threads. -/
def lutWrites (w N k opt b levels : Nat) : List (Nat × BitVec w) :=
  (List.range levels).flatMap fun x => (List.range (N / opt)).flatMap fun tid => (List.range opt).map fun i =>
    ((x * (k + 1) + k) * N + (tid + i * (N / opt)), 0#w - (1#w <<< (w - 1 - b * (x + 1))))

/-- cbs.cuh:76-101 `copy_add_lwe_cbs` on a grid of `count (k + 1)` times `k` blocks (224-225). -/
def copyWrites (N k opt b levels count : Nat) (src : Nat → BitVec w) : List (Nat × BitVec w) :=
  (List.range (count * (k + 1))).flatMap fun x => (List.range k).flatMap fun y =>
    (List.range (N / opt)).flatMap fun tid =>
      let s := x / (k + 1)
      ((List.range opt).map fun i => (x * (k * N + 1) + (y * N + (tid + i * (N / opt))),
        src (s * (k * N + 1) + (y * N + (tid + i * (N / opt)))))) ++
      if tid = 0 ∧ y = 0 then
        [(x * (k * N + 1) + k * N, src (s * (k * N + 1) + k * N) + (1#w <<< (w - 1 - b * (s % levels + 1))))]
      else []

/-- cbs.cuh:218-222, the amortized bootstraps: `pbs lut in out` is the bootstrap of one ciphertext (`Am.bootstrap`),
sample `z` uses the table of index `indexes z`. The results, one ciphertext after the other. `none` if one of them is
not modelled. -/
def bootstrapAll (pbs : List (BitVec w) → List (BitVec w) → List (BitVec w) → Option (List (BitVec w)))
    (N k n count : Nat) (indexes : Nat → Nat) (lut input out : Nat → BitVec w) : Option (List (List (BitVec w))) :=
  (List.range count).mapM fun z =>
    pbs (part lut ((k + 1) * N) (indexes z)) (part input (n + 1) z) (part out (k * N + 1) z)

/-- A list in the place of a buffer. -/
def ofList (l : List (BitVec w)) : Nat → BitVec w := fun i => l.getD i 0

/-- cbs.cuh:156-237 `host_circuit_bootstrap`. `n` is the dimension of the inputs, `bk`, `lk` the decomposition of the
keyswitch, `bc`, `lc` that of the output; `mem i` is the previous content of the buffer number `i` of the function.
`none` if the shifts 58, 96 and 199 are by a negative number (undefined) or if a bootstrap is not modelled. The
keyswitch is that of C72. -/
def circuitBootstrap (σ : Sched (BitVec w)) (τ : Order)
    (pbs : List (BitVec w) → List (BitVec w) → List (BitVec w) → Option (List (BitVec w)))
    (N k n opt bk lk bc lc delta inputs : Nat) (indexes : Nat → Nat) (mem : Nat → Nat → BitVec w)
    (lweIn : Nat → BitVec w) (ksk : List (BitVec w)) (ggswOut : DVec (BitVec w)) : Option (Out (DVec (BitVec w))) :=
  if w < 2 ∨ w ≤ delta ∨ w ≤ bc * lc then none
  else
    let count := inputs * lc
    let shifted := store (σ (shiftWrites lc inputs (n + 1) (1#w <<< (w - delta - 1)) lweIn)) (mem 1)
    let shifted := store (σ (bodyWrites count n (1#w <<< (w - 2)) shifted)) shifted
    let lut := fun i => if i < lc * (k + 1) * N then 0#w else mem 2 i
    let lut := store (σ (lutWrites w N k opt bc lc)) lut
    (bootstrapAll pbs N k n count indexes lut shifted (mem 0)).map fun out =>
      let copies := store (σ (copyWrites N k opt bc lc count (ofList out.flatten))) (mem 3)
      hostFpKeyswitch τ bk lk (k * N) (k + 1) N (count * (k + 1)) (k + 1)
        ((part copies (count * (k + 1) * (k * N + 1)) 0).map some) (ksk.map some) ggswOut

/-- wop_bootstrap.cuh:115-193 `host_circuit_bootstrap_vertical_packing`: the circuit bootstraps, whose output `ggswMem` is
in a buffer, then the vertical packing. An error of the launches of the circuit bootstrap ends the process (170). `none`
if the GGSWs are not all written, a shift is undefined or a bootstrap is not modelled. -/
def cbsVerticalPacking (σ : Sched (BitVec w)) (τ : Order)
    (pbs : List (BitVec w) → List (BitVec w) → List (BitVec w) → Option (List (BitVec w)))
    (T : Pbs.Transform w) (N k n opt logN bk lk bc lc delta inputs tau : Nat) (indexes : Nat → Nat)
    (mem : Nat → Nat → BitVec w) (treeMem : Nat → List (BitVec w)) (lweIn : Nat → BitVec w) (ksk lut : List (BitVec w))
    (ggswMem : DVec (BitVec w)) (lweOuts : List (List (BitVec w))) : Option (Out (List (List (BitVec w)))) :=
  if (k + 1) * N / 256 = 0 ∨ inputs * lc * (k + 1) = 0 ∨ 65535 < inputs * lc * (k + 1) ∨ k = 0 then some .exit
  else
    match circuitBootstrap σ τ pbs N k n opt bk lk bc lc delta inputs indexes mem lweIn ksk ggswMem with
    | some (.ok r) => (r.mapM id).bind fun ggsws =>
        (Vp.verticalPacking T N k bc lc logN inputs tau ggsws lut treeMem lweOuts).map .ok
    | some .panic => some .panic
    | some .exit => some .exit
    | some .overrun => some .overrun
    | none => none

end Verif.Cuda.Cbs
