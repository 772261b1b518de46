import Verif.Float.Lemmas
/-
The interchange format of IEEE 754 binary64 (a sign bit, 11 bits of biased exponent, 52 bits of
significand), through which the vectorised code of
/repo/concrete-core/src/backends/fft/private/math/fft/x86.rs converts integers from and to `f64`
(`_mm256_castpd_si256`, `_mm256_castsi256_pd`), and the two operations it uses beside those of
Verif.Float.Ieee.
-/
namespace Verif.Float

/-- The sign bit. -/
def signBit (b : BitVec 64) : Bool := 2 ^ 63 ≤ b.toNat

/-- The biased exponent. -/
def expField (b : BitVec 64) : Nat := b.toNat / 2 ^ 52 % 2 ^ 11

/-- The stored bits of the significand. -/
def fracField (b : BitVec 64) : Nat := b.toNat % 2 ^ 52

/-- `f64::from_bits` (`_mm256_castsi256_pd` on one lane). -/
def ofBits (b : BitVec 64) : F64 :=
  let s : ℚ := if signBit b then -1 else 1
  if expField b = 2047 then
    if fracField b = 0 then (if signBit b then .ninf else .pinf) else .nan
  else if expField b = 0 then .fin (s * fracField b * 2 ^ (-1074 : ℤ))
  else .fin (s * (2 ^ 52 + fracField b) * 2 ^ ((expField b : ℤ) - 1075))

/-- The 63 bits below the sign of a finite number: its significand in units in the last place and its
exponent. -/
def magBits (q : ℚ) : Nat :=
  let m := ⌊|q| / 2 ^ ulpExp q⌋.toNat
  if m < 2 ^ 52 then m else (ulpExp q + 1074).toNat * 2 ^ 52 + m

/-- `f64::to_bits` (`_mm256_castpd_si256` on one lane). The one zero of the model is mapped to `+0` and the
one NaN to the quiet NaN; a rational that is no binary64 number is first cut to its leading bits. -/
def toBits : F64 → BitVec 64
  | .fin q => BitVec.ofNat 64 ((if q < 0 then 2 ^ 63 else 0) + magBits q)
  | .pinf => 0x7FF0000000000000#64
  | .ninf => 0xFFF0000000000000#64
  | .nan => 0x7FF8000000000000#64

namespace F64

/-- Fused multiply-add `a * b + c` with one rounding (`_mm256_fmadd_pd` on one lane). -/
def fma : F64 → F64 → F64 → F64
  | fin a, fin b, fin c => ofRat (a * b + c)
  | fin _, fin _, c => c
  | a, b, c => (a.mul b).add c

/-- Rounding to the nearest integer, ties to even (`_mm256_round_pd` with `_MM_FROUND_NINT`). -/
def roundEven : F64 → F64
  | fin q => fin (rne q)
  | x => x

end F64

example : toBits (.fin 1) = 0x3FF0000000000000#64 := by decide +kernel
example : toBits (.fin (-5 / 2)) = 0xC004000000000000#64 := by decide +kernel
example : toBits (.fin (1 / 2 ^ 1074)) = 1#64 := by decide +kernel
example : toBits (.fin (1 / 2 ^ 1022)) = 0x0010000000000000#64 := by decide +kernel
example : toBits (.fin (2 ^ 1024 - 2 ^ 971)) = 0x7FEFFFFFFFFFFFFF#64 := by decide +kernel
example : ofBits 0x4009_21FB_5444_2D18#64 = .fin (884279719003555 / 281474976710656) := by decide +kernel

end Verif.Float
