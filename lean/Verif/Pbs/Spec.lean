import Verif.Pbs.Model
import Verif.Glwe.Spec
/-
Specification vocabulary for the external product and the bootstrap.
-/
namespace Verif.Pbs
open Verif.Poly Verif.Glwe

variable {w : Nat}

/-- What is required of a transform: a sum of at most `M` products of polynomials of size `N`, whose second
factors have coefficients of absolute value at most `D`, is added to the output with an error of at most
`B` on each coefficient. For an exact transform `B = 0`. -/
def Transform.Accurate (T : Transform w) (N M : Nat) (D B : Int) : Prop :=
  ∀ (out : List (BitVec w)) (ps : List (List (BitVec w) × List (BitVec w))), out.length = N →
    ps.length ≤ M →
    (∀ x ∈ ps, x.1.length = N ∧ x.2.length = N ∧ ∀ c ∈ x.2, |c.toInt| ≤ D) →
    (T.addBack out (ps.foldl (fun acc x => T.mulAcc acc (T.fwdGgsw x.1) (T.fwdDigit x.2)) T.zero)).length = N ∧
    ∃ δ : Rq (BitVec w) N, Small N B δ ∧
      toRq N (T.addBack out
          (ps.foldl (fun acc x => T.mulAcc acc (T.fwdGgsw x.1) (T.fwdDigit x.2)) T.zero)) =
        toRq N out + (ps.map fun x => toRq N x.1 * toRq N x.2).sum + δ

/-- The transform that computes the products directly. -/
def exactTransform (w N : Nat) : Transform w where
  E := List (BitVec w)
  zero := List.replicate N 0#w
  fwdGgsw := id
  fwdDigit := id
  mulAcc := fun acc a d => Poly.addMul acc a d
  addBack := fun out e => Poly.add out e

/-- The coefficients of a key have absolute value at most `S` (`S = 1` for binary and ternary keys). -/
def KeyBound (S : Int) (key : List (BitVec w)) : Prop := ∀ x ∈ key, |x.toInt| ≤ S

/-- Bound on the error of an external product by a constant `c` with `|c| ≤ m`: the digits times the errors
of the GGSW (at most `E` per coefficient), the errors of the transform (at most `B`) and the rounding of the
input, the last two multiplied by the key. -/
def epBound (w N k b l : Nat) (S E B m : Int) : Int :=
  l * ((k + 1) * (N * (2 ^ (b - 1) * E))) + (k * (N * S) + 1) * B +
    m * ((k * (N * S) + 1) * 2 ^ (w - b * l - 1))

/-- `bsk` is a bootstrap key for the LWE key `lweKey`: its `i`-th GGSW encrypts the `i`-th coefficient, with
errors of at most `E` per coefficient. -/
def BskEnc (N k b l : Nat) (lweKey key bsk : List (BitVec w)) (E : Int) : Prop :=
  bsk.length = lweKey.length * (l * ((k + 1) * ((k + 1) * N))) ∧
  ∀ i, i < lweKey.length → ∃ err : Nat → Nat → Rq (BitVec w) N,
    (∀ j r, j < l → r ≤ k → Small N E (err j r)) ∧
    GgswEnc N k b l key (block (l * ((k + 1) * ((k + 1) * N))) bsk i) (AdjoinRoot.of _ (lweKey.getD i 0)) err

/-- The integer nearest to `x * 2N / 2^w` with `N = 2^logN`, ties up: `⌊x * 2N / 2^w + 1/2⌋`. -/
def nearestDegree (logN : Nat) (x : BitVec w) : Nat := (2 * (x.toNat * 2 ^ (logN + 1)) + 2 ^ w) / (2 * 2 ^ w)

/-- The number of ones of a binary key. -/
def weight (s : List (BitVec w)) : Nat := ∑ i ∈ Finset.range s.length, (s.getD i 0).toNat

/-- `d` is the switched phase of `ct`, modulo `2N`: `d = b' - Σ a'_i s_i`. -/
def IsSwitchedPhase (logN : Nat) (s ct : List (BitVec w)) (d : Nat) : Prop :=
  d + ∑ i ∈ Finset.range s.length, nearestDegree logN (ct.getD i 0) * (s.getD i 0).toNat ≡
    nearestDegree logN (ct.getD s.length 0) [MOD 2 * 2 ^ logN]

end Verif.Pbs
