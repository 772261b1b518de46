import Verif.Poly.Spec
import Verif.Util.Containers
import Verif.Util.BitVecRing
/-
Specification vocabulary for GLWE and GGSW. Nothing here refers to the model.
-/
namespace Verif.Glwe
open Verif.Poly

variable {R : Type} [CommRing R]

/-- The phase of the GLWE ciphertext `(a_0, …, a_{k-1}, b)` under the key `(s_0, …, s_{k-1})`:
`b - Σ a_i s_i` in `R[X]/(X^N+1)`. -/
noncomputable def glwePhase (N k : Nat) (key ct : List R) : Rq R N :=
  toRq N (block N ct k) - ∑ i ∈ Finset.range k, toRq N (block N ct i) * toRq N (block N key i)

/-- Sizes of a GLWE secret key and ciphertext. -/
def KeyFits (N k : Nat) (key : List R) : Prop := key.length = k * N
def CtFits (N k : Nat) (ct : List R) : Prop := ct.length = (k + 1) * N

/-- Row `r` of the level matrix `j` (level `j + 1`) of a GGSW ciphertext. -/
def ggswRow (N k : Nat) (ggsw : List R) (j r : Nat) : List R :=
  block ((k + 1) * N) (block ((k + 1) * ((k + 1) * N)) ggsw j) r

/-- What row `r` multiplies: `-s_r` for the mask rows, `1` for the body row. -/
noncomputable def rowFactor (N k : Nat) (key : List R) (r : Nat) : Rq R N :=
  if r < k then - toRq N (block N key r) else 1

/-- `ggsw` is a GGSW encryption of `μ` under `key` with base `2^b` and `level` levels, with errors
`err j r`: row `r` of level `j + 1` has phase `μ · 2^(w - b(j+1)) · rowFactor r + err j r`. -/
def GgswEnc {w : Nat} (N k b level : Nat) (key ggsw : List (BitVec w)) (μ : Rq (BitVec w) N)
    (err : Nat → Nat → Rq (BitVec w) N) : Prop :=
  ggsw.length = level * ((k + 1) * ((k + 1) * N)) ∧
  ∀ j, j < level → ∀ r, r ≤ k → glwePhase N k key (ggswRow N k ggsw j r) =
    μ * 2 ^ (w - b * (j + 1)) * rowFactor N k key r + err j r

end Verif.Glwe
