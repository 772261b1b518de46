import Mathlib.Data.Rat.Floor
import Mathlib.Algebra.Order.Field.Rat
/-
Specification vocabulary for the float conversions and encoders.
-/
namespace Verif.Encode

/-- `q` is a finite IEEE 754 binary64 number: a 53 bit significand and a bounded exponent. -/
def IsF64 (q : ℚ) : Prop :=
  ∃ k e : ℤ, |k| < 2 ^ 53 ∧ -1074 ≤ e ∧ e ≤ 971 ∧ q = (k : ℚ) * 2 ^ e

/-- The number of bits of a plaintext scalar: `u32` or `u64`. -/
def Width (w : ℕ) : Prop := w = 32 ∨ w = 64

/-- Length of the interval an encoder covers: the requested range plus one granule,
`(max - min) * 2^p / (2^p - 1)`. -/
def span (min max : ℚ) (p : ℕ) : ℚ := (max - min) * 2 ^ p / (2 ^ p - 1)

/-- `x` and the value `n / 2^w` are within `d / 2^w` of each other on the torus (modulo 1). -/
def TorusNear (w : ℕ) (n : ℕ) (x d : ℚ) : Prop := ∃ k : ℤ, |(n : ℚ) - (x - k) * 2 ^ w| ≤ d

end Verif.Encode
