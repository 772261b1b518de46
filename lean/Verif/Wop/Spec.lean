import Verif.Wop.Model
import Verif.Pbs.Spec
/-
Specification vocabulary for the operations without padding.
-/
namespace Verif.Wop
open Verif.Poly Verif.Glwe

variable {w : Nat}

/-- The number spelled by a list of bits, most significant first. -/
def indexOf : List Bool → Nat
  | [] => 0
  | b :: bs => (if b then 2 ^ bs.length else 0) + indexOf bs

/-- `ggsws` are GGSW encryptions of the bits `bits` under `key`, with errors of at most `E` per
coefficient. -/
def BitsEnc (N k b l : Nat) (key : List (BitVec w)) (ggsws : List (List (BitVec w))) (bits : List Bool) (E : Int) :
    Prop :=
  ggsws.length = bits.length ∧ ∀ i, i < bits.length → ∃ err : Nat → Nat → Rq (BitVec w) N,
    (∀ j r, j < l → r ≤ k → Small N E (err j r)) ∧
    GgswEnc N k b l key (ggsws.getD i []) (if bits.getD i false then 1 else 0) err

end Verif.Wop
