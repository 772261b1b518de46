import Verif.Random.Model
import Mathlib.Data.Fintype.Pi
import Mathlib.Data.Fintype.BigOperators
import Mathlib.Data.Fintype.EquivFin
/-
Specification vocabulary for the distribution of the samplers: the number of strings of bytes for which a sampler gives a
result. With uniform bytes, the probability of the result is this number divided by `256^L`.
-/
namespace Verif.Random

/-- A generator that gives the bytes `bs` and then has no more. -/
def srcOf (bs : List (BitVec 8)) : Src := ⟨fun i => bs.getD i 0, 0, bs.length⟩

/-- The result of a sampler on the bytes `bs`; `none` when there are not enough of them. -/
def result {A : Type} (s : Samp A) (bs : List (BitVec 8)) : Option A := (s (srcOf bs)).map Prod.fst

/-- `BitVec w` has `2^w` elements. -/
instance (w : Nat) : Fintype (BitVec w) :=
  Fintype.ofEquiv (Fin (2 ^ w)) ⟨BitVec.ofFin, BitVec.toFin, fun _ => rfl, fun _ => rfl⟩

/-- The number of strings of `L` bytes for which the sampler gives `a`. -/
def ways {A : Type} [DecidableEq A] (s : Samp A) (L : Nat) (a : A) : Nat :=
  (Finset.univ.filter fun bs : Fin L → BitVec 8 => result s (List.ofFn bs) = some a).card

/-- The list with some of the signs changed: those of the elements `i` with `σ i`. -/
def flip {w : Nat} (σ : Nat → Bool) (es : List (BitVec w)) : List (BitVec w) := es.mapIdx fun i e => if σ i then -e else e

/-- In how many strings of `L` bytes there are `n` bytes usable for given ternary values: 64 of the bytes give each of the
three values, and 64 are not used. -/
def ternaryWays : Nat → Nat → Nat
  | 0, L => 256 ^ L
  | _ + 1, 0 => 0
  | n + 1, L + 1 => 64 * ternaryWays n L + 64 * ternaryWays (n + 1) L

end Verif.Random
