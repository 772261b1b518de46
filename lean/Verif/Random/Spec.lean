import Verif.Random.Model
import Mathlib.Algebra.BigOperators.Group.Finset.Basic
/-
Specification vocabulary for the random samplers.
-/
namespace Verif.Random

/-- The integer written in little-endian order in the `n` bytes of `table` from position `p` on. -/
def leValue (table : Nat → BitVec 8) (p n : Nat) : Nat :=
  ∑ i ∈ Finset.range n, (table (p + i)).toNat * 256 ^ i

/-- The source `g` after `n` more bytes have been read. -/
def Src.skip (g : Src) (n : Nat) : Src := { g with pos := g.pos + n }

end Verif.Random
