import Verif.Cuda.BitExtraction
/-
Model of the wop-PBS of CUDA.

Source: /repo/concrete-cuda/cuda/src/wop_bootstrap.cuh (`wop.cuh`) and wop_bootstrap.cu.

As in `CircuitBootstrap` and `BitExtraction`; the places of the buffers in the memory are the subject of C87.
-/
namespace Verif.Cuda.Wp
open Verif.Cuda.Cbs (Sched)

variable {w : Nat}

/-- What the caller chooses, in words: wop.cuh:279-292. -/
structure Params where
  N : Nat
  k : Nat
  n : Nat
  opt : Nat
  logN : Nat
  basePksk : Nat
  levelPksk : Nat
  baseCbs : Nat
  levelCbs : Nat
  messageBits : Nat
  extracted : Nat

/-- wop.cuh:255-257 `scratch_wop_pbs`: the position of the lowest bit of the message, for a message of `messageBits` bits
with its padding. -/
def Params.delta (p : Params) (w : Nat) : Nat := w - p.messageBits

/-- wop.cuh:96-97 `scratch_circuit_bootstrap_vertical_packing`: the position of the extracted bits. -/
def Params.cbsDelta (_ : Params) (w : Nat) : Nat := w - 1

/-- wop.cuh:278-319 `host_wop_pbs` for one ciphertext (`number_of_inputs = 1`, one table): the bits are extracted into a
buffer (295-302), from which the circuit bootstraps read them (308-316). `ks` and `pbs` are the keyswitch and the
bootstrap of each iteration of the extraction, `pbs'` the bootstrap of the circuit bootstrap. `B`, `mem`, `treeMem`,
`ggswMem` and `lweOut` are previous contents of memory; the output buffer of `B` is the buffer of the bits. -/
def hostWopPbs (σ : Sched (BitVec w)) (τ : Order)
    (ks : Nat → List (BitVec w) → List (BitVec w) → Option (List (BitVec w)))
    (pbs : Nat → List (BitVec w) → List (BitVec w) → List (BitVec w) → Option (List (BitVec w)))
    (pbs' : List (BitVec w) → List (BitVec w) → List (BitVec w) → Option (List (BitVec w)))
    (T : Pbs.Transform w) (p : Params) (indexes : Nat → Nat) (B : Be.Bufs w) (mem : Nat → Nat → BitVec w)
    (treeMem : Nat → List (BitVec w)) (ggswMem : DVec (BitVec w)) (lweIn pksk lut lweOut : List (BitVec w)) :
    Option (Out (List (List (BitVec w)))) :=
  match Be.hostExtractBits σ ks pbs p.N p.k p.n p.opt (p.delta w) p.extracted B fun i => lweIn.getD i 0 with
  | none => none
  | some bits => Cbs.cbsVerticalPacking σ τ pbs' T p.N p.k p.n p.opt p.logN p.basePksk p.levelPksk p.baseCbs p.levelCbs
      (p.cbsDelta w) p.extracted 1 indexes mem treeMem bits pksk lut ggswMem [lweOut]

end Verif.Cuda.Wp
