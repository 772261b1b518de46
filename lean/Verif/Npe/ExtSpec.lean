import Verif.Npe.Round
import Verif.Glwe.Spec
/-
Specification for C99: the random experiment of an external product with a GGSW ciphertext of a random bit.
-/
namespace Verif.Npe
open Verif.Poly Dist

variable {w N k l : Nat} {α κ ε : Type} [Fintype α] [Fintype κ] [Fintype ε]

/-- The polynomial, modulo `X^N + 1`, with the given integer coefficients. -/
noncomputable def polyOf (w : Nat) {N : Nat} (z : Fin N → Int) : Rq (BitVec w) N :=
  toRq N (List.ofFn fun i => ((z i : Int) : BitVec w))

/-- What is drawn: a bit, the coefficients of the `k` polynomials of the key, the words of the `k + 1`
polynomials of the ciphertext, its noise, and the noises of the `l (k + 1)` rows of the GGSW ciphertext. -/
structure EpSample (w N k l : Nat) (α κ ε : Type) where
  bit : Bool
  key : Fin k → Fin N → κ
  ct : Fin (k + 1) → Fin N → BitVec w
  noise : Fin N → α
  rows : Fin l → Fin (k + 1) → Fin N → ε

/-- The same as nested pairs. -/
abbrev EpTuple (w N k l : Nat) (α κ ε : Type) :=
  (Bool × (Fin k → Fin N → κ)) × ((Fin (k + 1) → Fin N → BitVec w) ×
    ((Fin N → α) × (Fin l → Fin (k + 1) → Fin N → ε)))

def EpTuple.sample (ω : EpTuple w N k l α κ ε) : EpSample w N k l α κ ε :=
  ⟨ω.1.1, ω.1.2, ω.2.1, ω.2.2.1, ω.2.2.2⟩

/-- All draws are independent; the bit and the words are uniform. -/
def epDist (w N k l : Nat) (d : Dist α) (dk : Dist κ) (de : Dist ε) : Dist (EpTuple w N k l α κ ε) :=
  ((uniform Bool).prod (iid k (iid N dk))).prod
    ((iid (k + 1) (iid N (uniform (BitVec w)))).prod ((iid N d).prod (iid l (iid (k + 1) (iid N de)))))

/-- The key, polynomial after polynomial. -/
def EpSample.keyList (X : κ → Int) (ω : EpSample w N k l α κ ε) : List (BitVec w) :=
  (List.ofFn fun i => List.ofFn fun a => ((X (ω.key i a) : Int) : BitVec w)).flatten

/-- The ciphertext, polynomial after polynomial. Its words are uniform: it encrypts the (uniform) message
`phase - noise`. -/
def EpSample.ctList (ω : EpSample w N k l α κ ε) : List (BitVec w) :=
  (List.ofFn fun r => List.ofFn fun a => ω.ct r a).flatten

/-- The noise polynomials of the rows of the GGSW ciphertext. -/
noncomputable def EpSample.err (e : ε → Int) (ω : EpSample w N k l α κ ε) (j r : Nat) : Rq (BitVec w) N :=
  if h : j < l ∧ r < k + 1 then polyOf w fun a => e (ω.rows ⟨j, h.1⟩ ⟨r, h.2⟩ a) else 0

/-- The encrypted bit. -/
noncomputable def EpSample.bitPoly (ω : EpSample w N k l α κ ε) : Rq (BitVec w) N := if ω.bit then 1 else 0

end Verif.Npe
