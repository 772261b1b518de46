import Verif.Ntt.Model
import Verif.Poly.Spec
import Mathlib.Data.ZMod.Basic
/-
Specification vocabulary for the NTT.
-/
namespace Verif.Ntt

/-- The operations of a commutative ring. -/
def ringOps (F : Type) [CommRing F] : Ops F := ⟨0, (· + ·), (· - ·), (· * ·)⟩

variable {F : Type} [CommRing F]

/-- The constant of node `k` of the splitting tree of `X^N + 1`: node 1 is `X^N - (-1)`, and the node of
`X^(2t) - r_k^2 = (X^t - r_k)(X^t + r_k)` has the children `2k` and `2k+1` of constants `r_k` and `-r_k`. -/
def nodeConst (roots : List F) (k : Nat) : F :=
  if k = 1 then -1 else if k % 2 = 0 then roots.getD (k / 2) 0 else - roots.getD (k / 2) 0

/-- The twiddle relations on the tables of a transform of size `2^log`: `r_1^2 = -1`, `r_{2k}^2 = r_k`,
`r_{2k+1}^2 = -r_k`; the inverse roots are inverses of the roots, and `n_inv * 2^log = 1`. -/
structure Valid (T : Tables F) : Prop where
  rootsLen : T.roots.length = 2 ^ T.logSize
  invLen : T.rootsInv.length = 2 ^ T.logSize
  one : 1 < 2 ^ T.logSize → T.roots.getD 1 0 ^ 2 = -1
  even : ∀ k, 1 ≤ k → 2 * k < 2 ^ T.logSize → T.roots.getD (2 * k) 0 ^ 2 = T.roots.getD k 0
  odd : ∀ k, 1 ≤ k → 2 * k + 1 < 2 ^ T.logSize → T.roots.getD (2 * k + 1) 0 ^ 2 = - T.roots.getD k 0
  inv : ∀ k, 1 ≤ k → k < 2 ^ T.logSize → T.roots.getD k 0 * T.rootsInv.getD k 0 = 1
  ninv : T.nInv * 2 ^ T.logSize = 1

/-- Evaluation of a polynomial given by its coefficients. -/
def evalAt (p : List F) (z : F) : F := ∑ j ∈ Finset.range p.length, p.getD j 0 * z ^ j

/-! ### Elements modulo `q` -/

variable {W w : Nat}

/-- The modulus leaves room for a product. -/
structure Room (q : BitVec W) : Prop where
  pos : 1 < q.toNat
  sq : q.toNat * q.toNat ≤ 2 ^ W

/-- The residue of an element. -/
def toZ (q : BitVec W) (a : ModQ W) : ZMod q.toNat := (a.val.toNat : ZMod q.toNat)

/-- The tables seen in `ZMod q`. -/
def Tables.toZ (q : BitVec W) (T : Tables (ModQ W)) : Tables (ZMod q.toNat) :=
  ⟨T.logSize, T.roots.map (Ntt.toZ q), T.rootsInv.map (Ntt.toZ q), Ntt.toZ q T.nInv⟩

/-- An element reduced modulo `q`. -/
def Reduced (q : BitVec W) (a : ModQ W) : Prop := a.q = q ∧ a.val.toNat < q.toNat

instance (q : BitVec W) (a : ModQ W) : Decidable (Reduced q a) := inferInstanceAs (Decidable (_ ∧ _))

/-- All the constants of the tables are reduced. -/
structure Tables.Reduced (q : BitVec W) (T : Tables (ModQ W)) : Prop where
  roots : ∀ a ∈ T.roots, Ntt.Reduced q a
  rootsInv : ∀ a ∈ T.rootsInv, Ntt.Reduced q a
  nInv : Ntt.Reduced q T.nInv

/-- The modulus `q` suits a torus of `w` bits: it is below `2^w`, and the words have at least `2w` bits. -/
structure Suits (w : Nat) (q : BitVec W) : Prop where
  wpos : 0 < w
  pos : 1 < q.toNat
  lt : q.toNat < 2 ^ w
  room : 2 * w ≤ W

end Verif.Ntt
