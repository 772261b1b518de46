import Verif.Npe.Prob
import Verif.Npe.Model
import Verif.Poly.Spec
/-
What the constants of a kind of key are meant to be: moments of the coefficients of random keys.
-/
namespace Verif.Npe
open Verif.Poly (negaConv)

/-- Coefficient `n` of the product, modulo `X^N + 1`, of two independent random keys of `N` coefficients. -/
def productCoef {α : Type} (X : α → ℚ) (N n : Nat) (ω : (Fin N → α) × (Fin N → α)) : ℚ :=
  negaConv N (List.ofFn fun i => X (ω.1 i)) (List.ofFn fun i => X (ω.2 i)) n

/-- Coefficient `n` of the square, modulo `X^N + 1`, of a random key of `N` coefficients. -/
def squareCoef {α : Type} (X : α → ℚ) (N n : Nat) (ω : Fin N → α) : ℚ :=
  negaConv N (List.ofFn fun i => X (ω i)) (List.ofFn fun i => X (ω i)) n

/-- The constants of `K` are the moments of keys whose coefficients are drawn independently as `X` under
`d`. A polynomial size is `1` or even (it is a power of two). For size `1` the square has only the
coefficient `0`; there the two constants are meant to be averaged. -/
structure Describes {α : Type} [Fintype α] (K : KeyDispersion) (d : Dist α) (X : α → ℚ) : Prop where
  expCoef : K.expCoef = d.E X
  varCoef : ∀ q, modVar (K.varCoef q) q = d.Var X
  expSq : ∀ q, K.expSq q = d.E fun a => X a ^ 2
  varSq : ∀ q, modVar (K.varSq q) q = d.Var fun a => X a ^ 2
  varOdd : ∀ q N n, 2 ∣ N → n < N → n % 2 = 1 →
    modVar (K.varOdd N q) q = (Dist.iid N d).Var (squareCoef X N n)
  varEven : ∀ q N n, 2 ∣ N → n < N → n % 2 = 0 →
    modVar (K.varEven N q) q = (Dist.iid N d).Var (squareCoef X N n)
  varOne : ∀ q, (modVar (K.varOdd 1 q) q + modVar (K.varEven 1 q) q) / 2 =
    (Dist.iid 1 d).Var (squareCoef X 1 0)
  sqExpSquared : ∀ q N, N = 1 ∨ 0 < N ∧ 2 ∣ N →
    K.sqExpSquared N q = (∑ n ∈ Finset.range N, (Dist.iid N d).E (squareCoef X N n) ^ 2) / N
  varTimes : ∀ q N n, n < N →
    modVar (K.varTimes N q) q = ((Dist.iid N d).prod (Dist.iid N d)).Var (productCoef X N n)
  sqExpTimes : ∀ N, 0 < N →
    K.sqExpTimes N = (∑ n ∈ Finset.range N,
      ((Dist.iid N d).prod (Dist.iid N d)).E (productCoef X N n) ^ 2) / N

/-- A uniform bit. -/
def bitValue (b : Bool) : ℚ := if b then 1 else 0

/-- A uniform element of `{-1, 0, 1}`. -/
def tritValue (t : Fin 3) : ℚ := (t.val : ℚ) - 1

end Verif.Npe
