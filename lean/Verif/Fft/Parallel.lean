import Verif.Engine.Checks
import Verif.Fft.Model
import Verif.Pbs.Model
/-
Model of the parallel engine of the Fourier backend: many threads bootstrap the ciphertexts of a vector.

Source: /repo/concrete-core/src/backends/fft/implementation/engines/fft_parallel_engine/mod.rs,
fft_parallel_engine/lwe_ciphertext_vector_discarding_bootstrap.rs, and for each ciphertext
fft_engine/lwe_ciphertext_discarding_bootstrap.rs. The 32-bit and 64-bit versions are equal up to the word.

A worker takes an item, computes the bootstrap in the memory of its own engine (`thread_local!`) and writes the words of
the result one after the other into the shared output; the steps of the workers interleave in any order. Inputs,
accumulators and key are shared and only read. A worker that computes has borrowed its engine (`borrow_mut`), so it
takes no other item until it has finished: the bootstrap of one ciphertext calls no function of rayon.
-/
namespace Verif.Fft.Parallel
open Verif.Engine Verif.Pbs

variable {w : Nat}

/-- The arguments of a call. `inDim`, `k`, `logN`, `b`, `l` are the parameters stored in the key; `lweSize`, `outSize`,
`accK`, `accN` those stored in the vectors. -/
structure Call (w : Nat) where
  T : Transform w
  inDim : Nat
  k : Nat
  logN : Nat
  b : Nat
  l : Nat
  bsk : List (BitVec w)
  lweSize : Nat
  input : List (BitVec w)
  outSize : Nat
  accK : Nat
  accN : Nat
  acc : List (BitVec w)

/-- The key as the checks see it. -/
def Call.key (c : Call w) : M.Bsk := ⟨c.inDim, c.k, 2 ^ c.logN, c.l, c.b⟩

/-- What the constructors of the entities ensure for vectors of `nIn` inputs and `nAcc` accumulators: whole ciphertexts,
none of which is empty. `hlog`: the polynomial size is in the range where the modulus switch does not panic
(`Pbs.pbsModulusSwitch`). -/
structure Call.WellFormed (c : Call w) (nIn nAcc : Nat) : Prop where
  hin : c.input.length = nIn * c.lweSize
  hin1 : 1 ≤ c.lweSize
  hout1 : 1 ≤ c.outSize
  hacc : c.acc.length = nAcc * ((c.accK + 1) * c.accN)
  hacc1 : 1 ≤ c.accN
  hlog : c.logN + 2 < w

/-- Numbers of ciphertexts: `lwe_ciphertext_count`, `glwe_ciphertext_count`. -/
def Call.inCount (c : Call w) : Nat := c.input.length / c.lweSize
def Call.accCount (c : Call w) : Nat := c.acc.length / ((c.accK + 1) * c.accN)

/-- lwe_ciphertext_vector_discarding_bootstrap.rs:32-35: the checks, on an output of `outLen` words. -/
def Call.check (c : Call w) (outLen : Nat) : Res EErr Unit :=
  match Checks.lweCiphertextVectorDiscardingBootstrap ⟨c.outSize - 1, outLen / c.outSize⟩ ⟨c.lweSize - 1, c.inCount⟩
      ⟨c.accK, c.accN, c.accCount⟩ c.key with
  | .ok _ => Checks.fft c.accN
  | r => r

/-- fft_engine/lwe_ciphertext_discarding_bootstrap.rs:81-115 on item `i`: checks, then the bootstrap. `none`: an error,
which the closure unwraps (lwe_ciphertext_vector_discarding_bootstrap.rs:55-59), or a panic. -/
def Call.item (c : Call w) (i : Nat) (out : List (BitVec w)) : Option (List (BitVec w)) :=
  let ct := block c.lweSize c.input i
  let acc := block ((c.accK + 1) * c.accN) c.acc i
  match Checks.fft c.accN with
  | .ok _ =>
    match Checks.lweCiphertextDiscardingBootstrap ⟨out.length - 1⟩ ⟨ct.length - 1⟩ ⟨acc.length / c.accN - 1, c.accN⟩ c.key with
    | .ok _ => bootstrap (cmuxFft c.T (2 ^ c.logN) c.k c.b c.l) (2 ^ c.logN) c.logN out ct acc
        (bskGgsws c.T (2 ^ c.logN) c.k c.l c.bsk)
    | _ => none
  | _ => none

/-- A worker thread: without an item, or writing word `pos` of the result `res` of item `i`. -/
inductive Worker (w : Nat)
  | idle
  | busy (i pos : Nat) (res : List (BitVec w))

/-- `todo`: the items that no worker has taken. -/
structure State (w : Nat) where
  out : List (BitVec w)
  todo : List Nat
  workers : List (Worker w)
  panicked : Bool

/-- lwe_ciphertext_vector_discarding_bootstrap.rs:47-51: the items of the zipped iterators, all to do. -/
def Call.start (c : Call w) (out : List (BitVec w)) (threads : Nat) : State w :=
  { out := out, todo := List.range (min (min c.inCount (out.length / c.outSize)) c.accCount),
    workers := List.replicate threads .idle, panicked := false }

/-- One step of one worker. -/
inductive Step (c : Call w) : State w → State w → Prop
  | take (s : State w) (t i : Nat) (r : List (BitVec w)) (ht : s.workers[t]? = some .idle) (hi : i ∈ s.todo)
      (h : c.item i (block c.outSize s.out i) = some r) :
      Step c s { s with todo := s.todo.erase i, workers := s.workers.set t (.busy i 0 r) }
  | fail (s : State w) (t i : Nat) (ht : s.workers[t]? = some .idle) (hi : i ∈ s.todo)
      (h : c.item i (block c.outSize s.out i) = none) :
      Step c s { s with todo := s.todo.erase i, panicked := true }
  | write (s : State w) (t i pos : Nat) (r : List (BitVec w)) (x : BitVec w)
      (ht : s.workers[t]? = some (.busy i pos r)) (hx : r[pos]? = some x) :
      Step c s { s with out := s.out.set (i * c.outSize + pos) x, workers := s.workers.set t (.busy i (pos + 1) r) }
  | finish (s : State w) (t i pos : Nat) (r : List (BitVec w)) (ht : s.workers[t]? = some (.busy i pos r))
      (hp : r.length ≤ pos) : Step c s { s with workers := s.workers.set t .idle }

/-- `n` steps. -/
inductive Steps (c : Call w) : Nat → State w → State w → Prop
  | refl (s : State w) : Steps c 0 s s
  | step {n : Nat} {s s' s'' : State w} : Steps c n s s' → Step c s' s'' → Steps c (n + 1) s s''

/-- All items are done. -/
def State.Final (s : State w) : Prop := s.todo = [] ∧ ∀ x ∈ s.workers, x = .idle

end Verif.Fft.Parallel
