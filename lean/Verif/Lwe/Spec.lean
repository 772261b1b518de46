import Mathlib.Algebra.Ring.Defs
import Mathlib.Algebra.BigOperators.Group.Finset.Basic
/-
Specification vocabulary for LWE. Nothing here refers to the model.
-/
namespace Verif.Lwe

/-- The phase of a ciphertext `(a_0, …, a_{n-1}, b)` under the key `s` of dimension `n`:
`b - Σ a_i s_i`. -/
def phase {R : Type} [CommRing R] (s ct : List R) : R :=
  ct.getD s.length 0 - ∑ i ∈ Finset.range s.length, ct.getD i 0 * s.getD i 0

/-- A ciphertext has the right number of words for the key `s`. -/
def Fits {R : Type} (s ct : List R) : Prop := ct.length = s.length + 1

/-- A key whose coefficients are bits. -/
def BinaryKey {R : Type} [CommRing R] (s : List R) : Prop := ∀ x ∈ s, x = 0 ∨ x = 1

end Verif.Lwe
