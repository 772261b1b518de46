import Verif.Random.CountSpec
import Verif.Random.Gauss
/-
Specification vocabulary for the generators with a limited number of bytes: the number of strings of bytes on which a
sampler panics. With uniform bytes, the probability of the panic is this number divided by `256^L`.
-/
namespace Verif.Random

/-- The number of strings of `L` bytes that are not enough for the sampler: it panics. -/
def fails {A : Type} (s : Samp A) (L : Nat) : Nat :=
  (Finset.univ.filter fun bs : Fin L → BitVec 8 => (result s (List.ofFn bs)).isNone = true).card

/-- The number of pairs of words on which a test has the given outcome. -/
def pairsWith {w : Nat} (test : BitVec w → BitVec w → Bool) (outcome : Bool) : Nat :=
  (Finset.univ.filter fun p : BitVec w × BitVec w => test p.1 p.2 = outcome).card

/-- The number of pairs of words the gaussian sampler refuses. -/
def refused : Nat := pairsWith Gauss.accept false

end Verif.Random
