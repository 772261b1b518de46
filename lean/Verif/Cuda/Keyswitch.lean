import Verif.Cuda.Kernels
import Verif.Lwe.Model
/-
Model of the keyswitch kernel of the CUDA backend as a concurrent program.

Source: /repo/concrete-cuda/cuda/src/keyswitch.cuh (abbreviated `keyswitch.cuh`), crypto/gadget.cuh,
crypto/torus.cuh, and /repo/concrete-core/src/backends/cuda/private/crypto/keyswitch/mod.rs.

One block of 128 threads computes one ciphertext, in the shared memory of the block. The model interleaves
the loads and stores of the threads in every way allowed by the barriers. Simplifications: memory is
sequentially consistent; blocks share only read-only memory, and each writes its own ciphertext of the
output (an access beyond it is an `overrun`), so each block has its own schedule and the interleaving of
different blocks is left out; sizes computed with 32-bit integers that do not fit are an `overrun`.
-/
namespace Verif.Cuda

variable {w : Nat}

/-- crypto/torus.cuh:30-40 `round_to_closest_multiple`. -/
def roundToClosestMultiple (b l : Nat) (x : BitVec w) : BitVec w :=
  let shift := w - l * b
  let mask := 1#w <<< (shift - 1)
  let bit := (x &&& mask) >>> (shift - 1)
  let res := x >>> shift
  let res := res + bit
  res <<< shift

/-- crypto/gadget.cuh:120-129 `decompose_one`; returns the digit and the new state. -/
def decomposeOne (state maskModB : BitVec w) (b : Nat) : BitVec w × BitVec w :=
  let res := state &&& maskModB
  let state := state >>> b
  let carry := ((res - 1#w) ||| state) &&& res
  let carry := carry >>> (b - 1)
  let state := state + carry
  (res - (carry <<< b), state)

/-- keyswitch.cuh:145-151, the value of `decomposed` in iteration `j` of the loop over the levels. -/
def levelDigit (b : Nat) : Nat → BitVec w → BitVec w
  | 0, state => (decomposeOne state ((1#w <<< b) - 1#w) b).1
  | j + 1, state => levelDigit b j (decomposeOne state ((1#w <<< b) - 1#w) b).2

/-- keyswitch.cuh:142-151, for the mask element `a`. -/
def gpuDigit (b l : Nat) (a : BitVec w) (j : Nat) : BitVec w :=
  levelDigit b j (roundToClosestMultiple b l a >>> (w - b * l))

/-- keyswitch.cuh:173 `ideal_threads`. -/
abbrev ksThreads : Nat := 128

/-- keyswitch.cuh:120-125 with 175-187: the number of coefficients of thread `tid`; `lweDim` is the output
LWE size. The code computes the quotients rounded up with doubles, exactly for these sizes. -/
def partPerThread (lweDim tid : Nat) : Nat :=
  if lweDim % ksThreads = 0 then
    let lower := lweDim / ksThreads
    let upper := lweDim / ksThreads
    if tid < 0 then upper else lower
  else
    let y := (lweDim + (ksThreads - 1)) / ksThreads * ksThreads - lweDim
    let cutoff := ksThreads - y
    let lower := lweDim / ksThreads
    let upper := (lweDim + (ksThreads - 1)) / ksThreads
    if tid < cutoff then upper else lower

/-- The arguments of a block of the kernel; `blk` is its index. -/
structure KsArgs (w : Nat) where
  b : Nat
  l : Nat
  dimIn : Nat
  dimOut : Nat
  input : DVec (BitVec w)
  ksk : DVec (BitVec w)
  blk : Nat

/-- The accesses of a thread to the shared memory. -/
inductive Instr where
  /-- keyswitch.cuh:130, `local[idx] = 0`. -/
  | zero (idx : Nat)
  /-- keyswitch.cuh:134-135, `local[n_out] = input[n_in]`. -/
  | body
  /-- keyswitch.cuh:154, `local[idx] -= ksk_block[idx] * decomposed`: a load, then a store. -/
  | sub (i j idx : Nat)
  /-- keyswitch.cuh:161, `output[idx] = local[idx]`. -/
  | out (idx : Nat)
  deriving DecidableEq, Repr

/-- keyswitch.cuh:128-131, 152-155 and 159-162: the loops over the coefficients of a thread. -/
def overPart (P : KsArgs w) (t : Nat) (f : Nat → Instr) : List Instr :=
  (List.range (partPerThread (P.dimOut + 1) t)).map fun k => f (t + k * ksThreads)

/-- What thread `t` does between two barriers: segment 0 is keyswitch.cuh:128-136 (before the first barrier
of the loop; the barrier of line 126 comes before every access), segment `i + 1` is iteration `i` of the
loop, keyswitch.cuh:142-156, and the last one is followed by lines 159-162. -/
def segment (P : KsArgs w) (t e : Nat) : List Instr :=
  (match e with
    | 0 => overPart P t .zero ++ if t = 0 then [.body] else []
    | i + 1 => (List.range P.l).flatMap fun j => overPart P t (.sub i j)) ++
  if e = P.dimIn then overPart P t .out else []

/-- A thread: the number of barriers of the loop that it passed, what remains of its segment, and the
register that holds a loaded value. -/
structure Thread (w : Nat) where
  epoch : Nat
  todo : List Instr
  loaded : Option (Option (BitVec w))

/-- A block of threads, with its shared memory and its ciphertext of the output. -/
structure Block (w : Nat) where
  threads : List (Thread w)
  shared : DVec (BitVec w)
  out : DVec (BitVec w)

/-- keyswitch.cuh:140 `__syncthreads`: every thread of the block has reached the end of segment `e`. -/
def arrived (st : Block w) (e : Nat) : Bool :=
  st.threads.all fun u => decide (e < u.epoch) || (decide (u.epoch = e) && u.todo.isEmpty)

/-- keyswitch.cuh:10-18 `get_ith_block` for level `l - j - 1`, at `idx`. -/
def kskIndex (P : KsArgs w) (i j idx : Nat) : Nat :=
  i * P.l * (P.dimOut + 1) + (P.l - j - 1) * (P.dimOut + 1) + idx

/-- One step of thread `t`. A thread that has finished, or that waits at a barrier, does nothing. -/
def step (P : KsArgs w) (st : Block w) (t : Nat) : Out (Block w) :=
  match st.threads[t]? with
  | none => .ok st
  | some th =>
    match th.todo with
    | [] =>
      if th.epoch < P.dimIn ∧ arrived st th.epoch = true then
        .ok { st with threads := st.threads.set t ⟨th.epoch + 1, segment P t (th.epoch + 1), none⟩ }
      else .ok st
    | .zero idx :: rest =>
      (DVec.write st.shared idx (some 0#w)).bind fun s =>
        .ok { st with threads := st.threads.set t ⟨th.epoch, rest, none⟩, shared := s }
    | .body :: rest =>
      (DVec.read P.input (P.blk * (P.dimIn + 1) + P.dimIn)).bind fun v =>
        (DVec.write st.shared P.dimOut v).bind fun s =>
          .ok { st with threads := st.threads.set t ⟨th.epoch, rest, none⟩, shared := s }
    | .sub i j idx :: rest =>
      match th.loaded with
      | none =>
        (DVec.read st.shared idx).bind fun v =>
          .ok { st with threads := st.threads.set t ⟨th.epoch, .sub i j idx :: rest, some v⟩ }
      | some v =>
        (DVec.read P.input (P.blk * (P.dimIn + 1) + i)).bind fun a =>
          (DVec.read P.ksk (kskIndex P i j idx)).bind fun k =>
            (DVec.write st.shared idx
              (v.bind fun v => k.bind fun k => a.map fun a => v - k * gpuDigit P.b P.l a j)).bind fun s =>
              .ok { st with threads := st.threads.set t ⟨th.epoch, rest, none⟩, shared := s }
    | .out idx :: rest =>
      (DVec.read st.shared idx).bind fun v =>
        (DVec.write st.out idx v).bind fun o =>
          .ok { st with threads := st.threads.set t ⟨th.epoch, rest, none⟩, out := o }

/-- The steps of a schedule: the list of the threads that move. -/
def steps (P : KsArgs w) (sched : List Nat) (st : Block w) : Out (Block w) :=
  sched.foldl (fun acc t => acc.bind fun st => step P st t) (.ok st)

/-- The start of a block: the shared memory is not initialised, and `out` was cleared by the host. -/
def ksStart (P : KsArgs w) (out : DVec (BitVec w)) : Block w :=
  { threads := (List.range ksThreads).map fun t => ⟨0, segment P t 0, none⟩,
    shared := List.replicate (P.dimOut + 1) none, out := out }

/-- All threads have finished. -/
def Finished (P : KsArgs w) (st : Block w) : Prop :=
  ∀ th ∈ st.threads, th.epoch = P.dimIn ∧ th.todo = []

/-- The number of steps that the threads of a block take. -/
def totalSteps (P : KsArgs w) : Nat :=
  ((List.range ksThreads).map fun t =>
    ((List.range (P.dimIn + 1)).map fun e => 2 * (segment P t e).length + 1).sum).sum

/-- A complete run of a block: an arbitrary schedule, then all threads in turn until they have finished. -/
def runBlock (P : KsArgs w) (sched : List Nat) (out : DVec (BitVec w)) : Out (Block w) :=
  (steps P sched (ksStart P out)).bind fun st =>
    steps P ((List.range (totalSteps P)).flatMap fun _ => List.range ksThreads) st

/-- The blocks of a launch; `sched k` is the schedule of block `k`. -/
def runBlocks (b l dimIn dimOut : Nat) (input ksk : DVec (BitVec w)) (sched : Nat → List Nat) :
    Nat → List (DVec (BitVec w)) → Out (List (DVec (BitVec w)))
  | _, [] => .ok []
  | k, o :: os =>
    (runBlock ⟨b, l, dimIn, dimOut, input, ksk, k⟩ (sched k) o).bind fun st =>
      (runBlocks b l dimIn dimOut input ksk sched (k + 1) os).bind fun rest => .ok (st.out :: rest)

/-- keyswitch.cuh:165-207 `cuda_keyswitch_lwe_ciphertext_vector`, with the wrapper private/device.rs:418-457.
`maxShared` is the largest shared memory of a block, in bytes; a launch that needs more, or with no block, is
refused. -/
def hostKeyswitch (maxShared : Nat) (sched : Nat → List Nat) (b l dimIn dimOut samples : Nat)
    (input ksk out : DVec (BitVec w)) : Out (DVec (BitVec w)) :=
  if 2 ^ 31 ≤ (dimOut + 1) * samples ∨ 2 ^ 31 ≤ dimIn * l * (dimOut + 1) then .overrun
  else if out.length < (dimOut + 1) * samples then .overrun
  else if samples = 0 ∨ maxShared < w / 8 * (dimOut + 1) then .exit
  else
    (runBlocks b l dimIn dimOut input ksk sched 0
      (List.replicate samples (List.replicate (dimOut + 1) (some 0#w)))).bind fun os =>
      .ok (os.flatten ++ out.drop ((dimOut + 1) * samples))

/-- private/crypto/keyswitch/mod.rs:29-60 `execute_lwe_ciphertext_vector_keyswitch_on_gpu`; `ksks` is the
key on every GPU. -/
def executeKeyswitch (maxShared : Nat) (sched : Nat → Nat → List Nat) (b l dimIn dimOut avail count : Nat)
    (inputs ksks outs : List (DVec (BitVec w))) : Out (List (DVec (BitVec w))) :=
  forGpus avail count (fun i samples out =>
    (getVec inputs i).bind fun v => (getVec ksks i).bind fun k =>
      hostKeyswitch maxShared (sched i) b l dimIn dimOut samples v k out) 0 outs

end Verif.Cuda
