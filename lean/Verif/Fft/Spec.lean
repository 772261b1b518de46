import Verif.Fft.Cplx
import Verif.Fft.Dft
import Mathlib.Analysis.SpecialFunctions.Trigonometric.Basic
/-
What is assumed of the code outside the repository that the Fourier transform calls: the crate concrete_fft and
`f64::sin_cos`.
-/
namespace Verif.Fft
open Verif.Float Finset

/-- The complex number at index `k` of a list of pairs of floats. -/
noncomputable def vals (zs : List C64) (k : ℕ) : ℂ := (at' zs k).val

/-- Finite numbers, far from the overflow threshold. -/
def Bounded (zs : List C64) : Prop := ∀ z ∈ zs, z.Finite ∧ ‖z.val‖ ≤ 2 ^ 200

/-- A plan computes the transform of size `n` with relative error `ε`: `fwd` is the evaluation at the `n`-th roots
of unity in some order, with an error of `ε` times the norm of the result; `inv` is its unnormalised inverse, with an
error of `ε` times the sum of the moduli of the inputs on each output. Both bounds hold for the usual fast algorithms,
with `ε` of the order of `2^-53 * log n`. `tiny` accounts for underflow. -/
def PlanAccurate (n : ℕ) (plan : Plan) (ε : ℝ) : Prop :=
  ∃ ρ : ℕ → ℂ, Roots n ρ ∧
    (∀ zs : List C64, zs.length = n → Bounded zs →
      (plan.fwd zs).length = n ∧ (∀ z ∈ plan.fwd zs, z.Finite) ∧
      l2 n (fun k => vals (plan.fwd zs) k - dft n ρ (vals zs) k) ≤ ε * (Real.sqrt n * l2 n (vals zs)) + tiny) ∧
    (∀ zs : List C64, zs.length = n → Bounded zs →
      (plan.inv zs).length = n ∧ (∀ z ∈ plan.inv zs, z.Finite) ∧
      ∀ j, j < n → ‖vals (plan.inv zs) j - idft n ρ (vals zs) j‖ ≤ ε * ∑ k ∈ range n, ‖vals zs k‖ + tiny)

/-- The platform's sine and cosine are accurate to `2^-52` on `[0, 2]`. -/
def SinCosAccurate (sinCos : F64 → F64 × F64) : Prop :=
  ∀ q : ℚ, 0 ≤ q → q ≤ 2 → ∃ s c : ℚ, sinCos (.fin q) = (.fin s, .fin c) ∧
    |(s : ℝ) - Real.sin q| ≤ 2 * u53 ∧ |(c : ℝ) - Real.cos q| ≤ 2 * u53

/-- The primitive `4n`-th root of unity by whose powers the coefficients are twisted. -/
noncomputable def xi (n : ℕ) : ℂ := Complex.exp ((Real.pi / (2 * n) : ℝ) * Complex.I)

/-- The twisting factors are the powers of `xi n`, with an error of at most `gam = 2^-49`. -/
def TwistAccurate (n : ℕ) (tw : List C64) : Prop :=
  tw.length = n ∧ ∀ j, j < n → (at' tw j).Finite ∧ ‖vals tw j - xi n ^ j‖ ≤ gam

end Verif.Fft
