import Mathlib.RingTheory.AdjoinRoot
/-
Specification vocabulary for polynomials. Nothing here refers to the model.
-/
namespace Verif.Poly
open Polynomial

variable {R : Type} [CommRing R]

/-- The polynomial `Σ p_i X^i` of a list of coefficients. -/
noncomputable def toPoly (p : List R) : R[X] :=
  ∑ i ∈ Finset.range p.length, C (p.getD i 0) * X ^ i

/-- The ring `R[X] / (X^N + 1)`. -/
abbrev Rq (R : Type) [CommRing R] (N : Nat) : Type := AdjoinRoot (X ^ N + 1 : R[X])

/-- The class of a list of coefficients in `R[X] / (X^N + 1)`. -/
noncomputable def toRq (N : Nat) (p : List R) : Rq R N := AdjoinRoot.mk (X ^ N + 1 : R[X]) (toPoly p)

/-- The class of `X`. -/
noncomputable def Xq (R : Type) [CommRing R] (N : Nat) : Rq R N := AdjoinRoot.root (X ^ N + 1 : R[X])

/-- Coefficient `k` of the negacyclic product of `p` and `q`, of size `N`:
`Σ_{i+j=k} p_i q_j - Σ_{i+j=k+N} p_i q_j`. -/
def negaConv (N : Nat) (p q : List R) (k : Nat) : R :=
  ∑ i ∈ Finset.range N, ∑ j ∈ Finset.range N,
    if i + j = k then p.getD i 0 * q.getD j 0
    else if i + j = k + N then -(p.getD i 0 * q.getD j 0) else 0

/-- The coefficients of `p` extended to all indices by `p_{i+N} = -p_i` (as `X^N = -1`). -/
def ext (N : Nat) (p : List R) (i : Nat) : R := (-1) ^ (i / N) * p.getD (i % N) 0

/-- `x` is the class of a polynomial of size `N` with integer coefficients of absolute value at most
`B`. -/
def Small (N : Nat) (B : Int) (x : Rq R N) : Prop :=
  ∃ z : List Int, z.length = N ∧ (∀ c ∈ z, |c| ≤ B) ∧ x = toRq N (z.map fun c : Int => (c : R))

end Verif.Poly
