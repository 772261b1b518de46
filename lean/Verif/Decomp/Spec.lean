/-
Specification vocabulary for the decomposition properties. Nothing here refers to the model.
-/
namespace Verif.Decomp

/-- Parameters accepted by `SignedDecomposer::new`: at least one level, a base of at least one bit,
and a precision strictly below the width. -/
structure ValidParams (w b l : Nat) : Prop where
  base : 0 < b
  level : 0 < l
  fits : b * l < w

/-- A value is representable when it is a multiple of `2^(w - b*l)`. -/
def Representable (b l : Nat) {w : Nat} (y : BitVec w) : Prop := 2 ^ (w - b * l) ∣ y.toNat

/-- Signed distance between two torus elements: the representative of the difference in
`[-2^(w-1), 2^(w-1))`. -/
def signedDiff {w : Nat} (x y : BitVec w) : Int := (x - y).toInt

/-- The integer `Σ digit · 2^(w - b·level)` reduced modulo `2^w`. -/
def weighted (w b : Nat) (digits : List (Nat × Int)) : BitVec w :=
  BitVec.ofInt w ((digits.map fun p => p.2 * 2 ^ (w - b * p.1)).sum)

end Verif.Decomp
