import Verif.Glwe.Spec
import Verif.Lwe.Spec
/-
Specification vocabulary for the packing keyswitches. Nothing here refers to the model.
-/
namespace Verif.Pks
open Verif.Poly Verif.Glwe

/-- The constant polynomial `x` in `R[X]/(X^N+1)`. -/
noncomputable def const {R : Type} [CommRing R] (N : Nat) (x : R) : Rq R N :=
  AdjoinRoot.of (Polynomial.X ^ N + 1 : Polynomial R) x

/-- A key of `n` blocks of `l` GLWE ciphertexts under `glweKey`, where the ciphertext `j` of block `i` has
phase `M i · 2^(w - b(j+1)) + err i j`. -/
def KeyEnc {w : Nat} (N k b l n : Nat) (glweKey ksk : List (BitVec w)) (M : Nat → Rq (BitVec w) N)
    (err : Nat → Nat → Rq (BitVec w) N) : Prop :=
  ksk.length = n * (l * ((k + 1) * N)) ∧
  ∀ i, i < n → ∀ j, j < l → glwePhase N k glweKey (block ((k + 1) * N) ksk (i * l + j)) =
    M i * 2 ^ (w - b * (j + 1)) + err i j

end Verif.Pks
