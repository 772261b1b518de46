import Verif.Encode.Model
import Verif.Encode.Spec
/-
Specification vocabulary for encrypted numbers: the range and the precision a user asks for, when they are compatible with
a noise, and the error to expect.
-/
set_option exponentiation.threshold 2000
namespace Verif.Encode
open Verif.Float

/-- What a user asks for: numbers between `min` and `max`, with `p` bits of precision and `pad` bits of padding. -/
structure Range where
  min : ℚ
  max : ℚ
  p : ℕ
  pad : ℕ

/-- The configuration of the encoder. -/
def Range.config (r : Range) : MinMax := ⟨.fin r.min, .fin r.max, r.p, r.pad⟩

/-- Plaintexts of `w` bits represent the range with its precision, and a noise of at most `B` units is below half a step of
the precision. -/
structure Range.Fine (w B : ℕ) (r : Range) : Prop where
  p1 : 1 ≤ r.p
  p46 : r.p ≤ 46
  pw : r.p + 1 < w
  pad : r.pad < w
  max : IsF64 r.max
  min_le : |r.min| ≤ 2 ^ 900
  max_le : |r.max| ≤ 2 ^ 900
  width : 1 / 2 ^ 900 ≤ r.max - r.min
  noise : ((B : ℚ) + 1) * 2 ^ r.pad + 2 ^ w / 2 ^ 49 < 2 ^ (w - r.p - 1)

/-- The error of a number sent through encoding, an encryption with noise at most `B`, and decoding: the noise on the scale
of the range, and a floating point error. -/
def Range.tolerance (w B : ℕ) (r : Range) : ℚ :=
  span r.min r.max r.p * (((B : ℚ) + 1) * 2 ^ r.pad / 2 ^ w) + (|r.min| + |r.max|) / 2 ^ 45

end Verif.Encode
