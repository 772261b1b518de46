import Verif.Float.Ieee
/-
Model of the modulus switch of the CUDA bootstraps, computed with doubles.

Source: /repo/concrete-cuda/cuda/src/crypto/torus.cuh (`torus.cuh`).
-/
namespace Verif.Cuda
open Verif.Float

/-- The conversion of a double to a word of `w` bits, for the values that it leaves unchanged; `none` for the others,
on which the conversion is not modelled. -/
def toWord (w : Nat) : F64 → Option Nat
  | .fin q => if 0 ≤ q ∧ q < 2 ^ w then some ⌊q⌋.toNat else none
  | _ => none

/-- torus.cuh:51-58 (`w = 32`) and 60-67 (`w = 64`) `rescale_torus_element`; the argument `log_shift` is the number
`2N`, bootstrap_amortized.cuh:92-93, 108-109, bootstrap_low_latency.cuh:185-186, 197-198. -/
def rescaleTorusElement {w : Nat} (element : BitVec w) (logShift : Nat) : Option Nat :=
  toWord w ((((F64.ofNat element.toNat).div ((F64.ofNat (2 ^ w - 1)).add (.fin 1))).mul (F64.ofNat logShift)).round)

end Verif.Cuda
