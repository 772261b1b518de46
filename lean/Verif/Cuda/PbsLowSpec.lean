import Verif.Cuda.PbsLow
import Mathlib.Algebra.BigOperators.Group.Finset.Basic
/-
Specification of the low latency bootstrap of CUDA: what the blocks should compute, without blocks, memory and
schedule. `acc0 x y z` is the accumulator with which block `(x, y, z)` starts.
-/
namespace Verif.Cuda.Low

variable {P A : Type}

/-- The contribution of polynomial `y` at level `v` to polynomial `c` of the external product of iteration `i`,
from the accumulators `acc` before that iteration. -/
def product (K : Kernel P A) (acc : Nat → Nat → Nat → A) (i z v y c : Nat) : P :=
  K.mul i v y c (K.prep i v y z (acc v y z))

/-- The contributions of level `v`, starting with the one of polynomial `c` and going down. -/
def joined (K : Kernel P A) (k : Nat) (acc : Nat → Nat → Nat → A) (i z v c : Nat) : P :=
  (List.range k).foldl (fun s j => K.add s (product K acc i z v ((c + (k + 1) - (j + 1)) % (k + 1)) c))
    (product K acc i z v c c)

/-- Polynomial `c` of the external product: the sum over the levels. -/
def external (K : Kernel P A) (k l : Nat) (acc : Nat → Nat → Nat → A) (i z c : Nat) : P :=
  (List.range (l - 1)).foldl (fun s v => K.add s (joined K k acc i z (v + 1) c)) (joined K k acc i z 0 c)

/-- The accumulators after `i` iterations. -/
def accAt (K : Kernel P A) (k l : Nat) (acc0 : Nat → Nat → Nat → A) : Nat → Nat → Nat → Nat → A
  | 0, x, y, z => acc0 x y z
  | i + 1, x, y, z => K.finish (accAt K k l acc0 i x y z) (external K k l (accAt K k l acc0 i) i z y)

end Verif.Cuda.Low
