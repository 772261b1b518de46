import Verif.Npe.Model
import Mathlib.Analysis.SpecialFunctions.Log.Base
/-
Model of the remaining estimators of concrete-npe: tensor product, relinearization, multiplication, most
significant bits, number of noise bits. As in `Npe/Model`, an `f64` is an exact number.
-/
namespace Verif.Npe

/-- operators.rs:170-264 `estimate_tensor_product_noise`. -/
def tensorNoise (K : KeyDispersion) (N k : Nat) (var1 var2 delta1 delta2 max1 max2 : ℚ) (q : Nat) : ℚ :=
  let n : ℚ := N
  let k : ℚ := k
  let d2 := square (min delta1 delta2)
  let qSquare : ℚ := 2 ^ (2 * q)
  let v := modVar (K.varCoef q) q
  let vt := modVar (K.varTimes N q) q
  let vo := modVar (K.varOdd N q) q
  let ve := modVar (K.varEven N q) q
  let res1 := n / d2 * (modVar var1 q * square delta2 * square max2 + modVar var2 q * square delta1 * square max1 +
    modVar var1 q * modVar var2 q)
  let res2 := ((qSquare - 1) / 12 * (1 + k * n * v + k * n * square K.expCoef) + k * n / 4 * v +
    1 / 4 * square (1 + k * n * K.expCoef)) * (modVar var1 q + modVar var2 q) * n / d2
  let res3 := 1 / 12 + k * n / (12 * d2) * ((d2 - 1) * (v + square K.expCoef) + 3 * v) +
    k * (k - 1) * n / (24 * d2) * ((d2 - 1) * (vt + K.sqExpTimes N) + 3 * vt) +
    k * n / (24 * d2) * ((d2 - 1) * (vo + ve + 2 * K.sqExpSquared N q) + 3 * (vo + ve))
  ofModVar (res2 + res1 + res3) q

/-- operators.rs:288-338 `estimate_relinearization_noise`. `b2l` is `2^(2 level)`, without the base log. -/
def relinNoise (K : KeyDispersion) (N k : Nat) (varRlk : ℚ) (baseLog level q : Nat) : ℚ :=
  let n : ℚ := N
  let k : ℚ := k
  let base : ℚ := 2 ^ baseLog
  let b2l : ℚ := 2 ^ (2 * level)
  let qSquare : ℚ := 2 ^ (2 * q)
  let vt := modVar (K.varTimes N q) q
  let vo := modVar (K.varOdd N q) q
  let ve := modVar (K.varEven N q) q
  let res1 := k * (level : ℚ) * n * modVar varRlk q * (k + 1) / 2 * (square base + 2) / 12
  let res2 := k * n / 2 * (qSquare / (12 * b2l) - 1 / 12) *
    ((k - 1) * (vt + K.sqExpTimes N) + vo + ve + 2 * K.sqExpTimes N)
  let res3 := k * n / 8 * ((k - 1) * vt + vo + ve)
  ofModVar (res1 + res2 + res3) q

/-- operators.rs:376-423 `estimate_multiplication_noise`. -/
def multiplicationNoise (K : KeyDispersion) (N k : Nat) (var1 var2 delta1 delta2 max1 max2 varRlk : ℚ)
    (baseLog level q : Nat) : ℚ :=
  ofModVar (modVar (tensorNoise K N k var1 var2 delta1 delta2 max1 max2 q) q +
    modVar (relinNoise K N k varRlk baseLog level q) q) q

/-- operators.rs:649-667 `estimate_msb_noise_rlwe`. -/
def msbNoise (K : KeyDispersion) (N q : Nat) : ℚ :=
  let n : ℚ := N
  let qSquare : ℚ := 2 ^ (2 * q)
  let v := modVar (K.varCoef q) q
  ofModVar (1 / qSquare * ((qSquare - 1) / 12 * (1 + n * v + n * square K.expCoef) + n / 4 * v)) q

/-- tools.rs:6-23 `estimate_number_of_noise_bits`, with exact square root and logarithm. The logarithm of 0 is
`-∞` in floating point and 0 here; both give 0 bits. -/
noncomputable def noiseBits (variance : ℚ) (q : Nat) : Nat :=
  let stdDev : ℝ := Real.sqrt (modVar variance q : ℚ)
  let tmp := Real.logb 2 (stdDev * 4)
  if tmp < 0 then 0 else ⌈tmp⌉₊

end Verif.Npe
