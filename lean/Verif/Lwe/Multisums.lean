import Verif.Lwe.Model
/-
Weighted sums over a list of LWE ciphertexts: concrete-core/src/commons/crypto/lwe/list.rs:456-480.
-/
namespace Verif.Lwe
open Verif.Csprng (Build)

variable {R : Type} [CommRing R]

/-- lwe/list.rs:470-471, 336-348 and encoding/cleartext.rs:138-149: the divisibility checks of `fill_with_multisums_with_biases`
and of the iterators it calls, compiled in debug builds only (`ck_dim_div!`, tensor/mod.rs:146-162, where a remainder by
zero panics). -/
def multisumsChecks (bld : Build) (lweSize outs ins weights biases : Nat) : Bool :=
  match bld with
  | .release => true
  | .debug => outs % lweSize = 0 ∧ ins % lweSize = 0 ∧
      weights ≠ 0 ∧ (ins / lweSize) % weights = 0 ∧ biases ≠ 0 ∧ (ins / lweSize) % biases = 0 ∧
      (ins / lweSize) % (outs / lweSize) = 0 ∧
      ins % ((ins / lweSize) / (outs / lweSize)) = 0 ∧ weights % ((ins / lweSize) / (outs / lweSize)) = 0

/-- lwe/list.rs:456-480 `fill_with_multisums_with_biases`, with its panics: an output without ciphertexts (division by zero), fewer
inputs than outputs (`chunks(0)`), and the checks of debug builds. Simplified: the two lists have the same LWE size. -/
def multisums (bld : Build) (lweSize : Nat) (out inputs weights biases : List R) : Option (List R) :=
  if lweSize = 0 ∨ out.length / lweSize = 0 ∨ (inputs.length / lweSize) / (out.length / lweSize) = 0 then none
  else if multisumsChecks bld lweSize out.length inputs.length weights.length biases.length then
    fillWithMultisumsWithBiases lweSize out inputs weights biases
  else none

end Verif.Lwe
