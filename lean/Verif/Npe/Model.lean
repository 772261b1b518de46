import Mathlib.Algebra.Field.Rat
import Mathlib.Data.Rat.Defs
/-
Model of the noise estimators of concrete-npe.

Source: /repo/concrete-npe/src/{key_dispersion,operators,tools}.rs.
Simplification: an `f64` is an exact rational, so the rounding of the floating point operations is left out
(the arithmetic of the variances themselves in floating point is the subject of C94). A dispersion is
given by its variance on the torus, which is what `get_variance` returns for every kind of dispersion.
A `u32`/`u64` weight is a `BitVec w`.
-/
namespace Verif.Npe

/-- tools.rs:26-31 `square`. -/
def square (x : ℚ) : ℚ := x * x

/-- concrete-core/src/specification/dispersion.rs:174-176 `from_modular_variance`. -/
def ofModVar (v : ℚ) (log2q : Nat) : ℚ := v / 2 ^ (2 * log2q)

/-- concrete-core/src/specification/dispersion.rs:192-194 `get_modular_variance` (the code goes through the
logarithm of the square root). -/
def modVar (v : ℚ) (log2q : Nat) : ℚ := v * 2 ^ (2 * log2q)

/-- key_dispersion.rs:10-171 `KeyDispersion`: the nine constants of a kind of key. -/
structure KeyDispersion where
  varCoef : Nat → ℚ
  expCoef : ℚ
  varSq : Nat → ℚ
  expSq : Nat → ℚ
  varOdd : Nat → Nat → ℚ
  varEven : Nat → Nat → ℚ
  sqExpSquared : Nat → Nat → ℚ
  varTimes : Nat → Nat → ℚ
  sqExpTimes : Nat → ℚ

/-- key_dispersion.rs:175-235, `BinaryKeyKind`. The arguments are the polynomial size and `log2_modulus`. -/
def binaryKey : KeyDispersion where
  varCoef q := ofModVar (1 / 4) q
  expCoef := 1 / 2
  varSq q := ofModVar (1 / 4) q
  expSq _ := 1 / 2
  varOdd N q := if N = 1 then ofModVar 0 q else ofModVar (3 * (N : ℚ) / 8) q
  varEven N q :=
    if N = 1 then ofModVar (2 * modVar (ofModVar (1 / 4) q) q) q
    else ofModVar (((3 * N - 2 : Nat) : ℚ) / 8) q
  sqExpSquared N _ := if N = 1 then square (1 / 2) else (square (N : ℚ) + 2) / 48
  varTimes N q := ofModVar (3 * (N : ℚ) / 16) q
  sqExpTimes N := (square (N : ℚ) + 2) / 48

/-- key_dispersion.rs:237-297, `TernaryKeyKind`. -/
def ternaryKey : KeyDispersion where
  varCoef q := ofModVar (2 / 3) q
  expCoef := 0
  varSq q := ofModVar (2 / 9) q
  expSq _ := 2 / 3
  varOdd N q := if N = 1 then ofModVar 0 q else ofModVar (8 * (N : ℚ) / 9) q
  varEven N q :=
    if N = 1 then ofModVar (2 * modVar (ofModVar (2 / 9) q) q) q
    else ofModVar (4 * ((2 * N - 3 : Nat) : ℚ) / 9) q
  sqExpSquared N _ := if N = 1 then square (2 / 3) else 0
  varTimes N q := ofModVar (4 * (N : ℚ) / 9) q
  sqExpTimes _ := 0

/-- key_dispersion.rs:8 `GAUSSIAN_MODULAR_STDEV`. -/
def gaussianStdev : ℚ := 16 / 5

/-- key_dispersion.rs:300-302, the variance of a Gaussian key coefficient. -/
def gaussianVar (q : Nat) : ℚ := ofModVar (square gaussianStdev) q

/-- key_dispersion.rs:306-314. -/
def gaussianVarSq (q : Nat) : ℚ := ofModVar (2 * square (modVar (gaussianVar q) q)) q

/-- key_dispersion.rs:299-388, `GaussianKeyKind`. -/
def gaussianKey : KeyDispersion where
  varCoef q := gaussianVar q
  expCoef := 0
  varSq q := gaussianVarSq q
  expSq q := modVar (gaussianVar q) q
  varOdd N q :=
    if N = 1 then ofModVar 0 q else ofModVar (2 * (N : ℚ) * square (modVar (gaussianVar q) q)) q
  varEven N q :=
    if N = 1 then ofModVar (2 * modVar (gaussianVarSq q) q) q
    else ofModVar (2 * (N : ℚ) * square (modVar (gaussianVar q) q)) q
  sqExpSquared N q := if N = 1 then square (modVar (gaussianVar q) q) else 0
  varTimes N q := ofModVar (square (modVar (gaussianVar q) q) * (N : ℚ)) q
  sqExpTimes _ := 0

/-- key_dispersion.rs:390-430, `ZeroKeyKind`. -/
def zeroKey : KeyDispersion where
  varCoef q := ofModVar 0 q
  expCoef := 0
  varSq q := ofModVar 0 q
  expSq _ := 0
  varOdd _ _ := 0
  varEven _ _ := 0
  sqExpSquared _ _ := 0
  varTimes _ _ := 0
  sqExpTimes _ := 0

/-! ### Linear operations -/

/-- operators.rs:25-38 `estimate_addition_noise`. -/
def additionNoise (v1 v2 : ℚ) (q : Nat) : ℚ := ofModVar (modVar v1 q + modVar v2 q) q

/-- operators.rs:55-65 `estimate_several_additions_noise`. -/
def severalAdditionsNoise (vs : List ℚ) (q : Nat) : ℚ :=
  ofModVar (vs.foldl (fun acc v => acc + modVar v q) 0) q

/-- operators.rs:78-86 `estimate_integer_plaintext_multiplication_noise`. The weight is squared in the
signed integer type of the same width: `none` is the overflow panic of a build with overflow checks; without
them (`release`) the product wraps. -/
def integerMulNoise {w : Nat} (release : Bool) (v : ℚ) (n : BitVec w) : Option ℚ :=
  if release = false ∧ ¬ (n.toInt * n.toInt < 2 ^ (w - 1)) then none
  else some (v * ((n * n).toInt : ℚ))

/-- operators.rs:106-108, the body of the loop of `estimate_weighted_sum_noise`. -/
def weightedStep {w : Nat} (release : Bool) (acc : Option ℚ) (p : ℚ × BitVec w) : Option ℚ :=
  match acc, integerMulNoise release p.1 p.2 with
  | some a, some b => some (a + b)
  | _, _ => none

/-- operators.rs:99-111 `estimate_weighted_sum_noise`: `zip` stops at the shorter list. -/
def weightedSumNoise {w : Nat} (release : Bool) (vs : List ℚ) (ws : List (BitVec w)) : Option ℚ :=
  (vs.zip ws).foldl (weightedStep release) (some 0)

/-- operators.rs:126-137 `estimate_polynomial_plaintext_multiplication_noise`. -/
def polynomialMulNoise {w : Nat} (release : Bool) (v : ℚ) (p : List (BitVec w)) : Option ℚ :=
  weightedSumNoise release (List.replicate p.length v) p

/-! ### Modulus switching and keyswitch -/

/-- operators.rs:440-460 `estimate_modulus_switching_noise_with_binary_key`. -/
def modulusSwitchingNoise (n nbMsb : Nat) (varIn : ℚ) (q : Nat) : ℚ :=
  let w : ℚ := 2 ^ nbMsb
  let qSquare : ℚ := 2 ^ (2 * q)
  ofModVar (modVar varIn q + 1 / 12 * qSquare / square w - 1 / 12 + (n : ℚ) / 24 * qSquare / square w +
    (n : ℚ) / 48) q

/-- operators.rs:482-527 `estimate_keyswitch_noise_lwe_to_glwe_with_constant_terms`. -/
def keyswitchNoise (K : KeyDispersion) (n : Nat) (varLwe varKsk : ℚ) (baseLog level q : Nat) : ℚ :=
  let base : ℚ := 2 ^ baseLog
  let b2l : ℚ := 2 ^ (baseLog * 2 * level)
  let qSquare : ℚ := 2 ^ (2 * q)
  let res1 := modVar varLwe q
  let res2 := (n : ℚ) * (qSquare / (12 * b2l) - 1 / 12) * (modVar (K.varCoef q) q + square K.expCoef)
  let res3 := (n : ℚ) / 4 * modVar (K.varCoef q) q
  let res4 := (n : ℚ) * (level : ℚ) * modVar varKsk q * (square base + 2) / 12
  ofModVar (res1 + res2 + res3 + res4) q

/-- operators.rs:618-640 `estimate_keyswitch_noise_lwe_to_glwe_with_non_constant_terms`. -/
def keyswitchNoiseNonConstant (n : Nat) (varKsk : ℚ) (baseLog level q : Nat) : ℚ :=
  let squareBase : ℚ := 2 ^ (2 * baseLog)
  ofModVar ((n : ℚ) * (level : ℚ) * modVar varKsk q * (squareBase + 2) / 12) q

/-- operators.rs:551-598 `estimate_private_functional_keyswitch_noise_lwe_to_glwe_with_constant_terms`. -/
def privateKeyswitchNoise (K : KeyDispersion) (n : Nat) (varLwe varKsk : ℚ) (baseLog level : Nat)
    (lipschitz : ℚ) (q : Nat) : ℚ :=
  let base : ℚ := 2 ^ baseLog
  let b2l : ℚ := 2 ^ (baseLog * 2 * level)
  let qSquare : ℚ := 2 ^ (2 * q)
  let r2 := square lipschitz
  let res1 := r2 * modVar varLwe q
  let res2 := r2 * (n : ℚ) * (qSquare / (12 * b2l) - 1 / 12) *
    (modVar (K.varCoef q) q + square K.expCoef)
  let res3 := r2 * (n : ℚ) / 4 * modVar (K.varCoef q) q
  let res4 := r2 * (qSquare / (12 * b2l) - 1 / 12)
  let res5 := ((n : ℚ) + 1) * (level : ℚ) * modVar varKsk q * (square base + 2) / 12
  ofModVar (res1 + res2 + res3 + res4 + res5) q

/-! ### External product, bootstrap and the programmes built from them -/

/-- operators.rs:694-729 `estimate_external_product_noise_with_binary_ggsw`. -/
def externalProductNoise (K : KeyDispersion) (N k : Nat) (varGlwe varGgsw : ℚ) (baseLog level q : Nat) :
    ℚ :=
  let b : ℚ := 2 ^ baseLog
  let b2l : ℚ := 2 ^ (baseLog * 2 * level)
  let qSquare : ℚ := 2 ^ (2 * q)
  let res1 := (level : ℚ) * ((k : ℚ) + 1) * (N : ℚ) * modVar varGgsw q * (square b + 2) / 12
  let res2 := modVar varGlwe q / 2
  let res3 := (qSquare - b2l) / (24 * b2l) *
    (1 + (k : ℚ) * (N : ℚ) * (modVar (K.varCoef q) q + square K.expCoef))
  let res4 := (k : ℚ) * (N : ℚ) / 8 * modVar (K.varCoef q) q
  let res5 := 1 / 16 * square (1 - (k : ℚ) * (N : ℚ) * K.expCoef)
  ofModVar (res1 + res2 + res3 + res4 + res5) q

/-- operators.rs:757-784 `estimate_cmux_noise_with_binary_ggsw`. -/
def cmuxNoise (K : KeyDispersion) (k N baseLog level : Nat) (var0 var1 varGgsw : ℚ) (q : Nat) : ℚ :=
  additionNoise (externalProductNoise K N k (additionNoise var0 var1 q) varGgsw baseLog level q) var0 q

/-- operators.rs:810-844 `estimate_pbs_noise`. -/
def pbsNoise (K : KeyDispersion) (n N k baseLog level : Nat) (varBsk : ℚ) (q : Nat) : ℚ :=
  let b : ℚ := 2 ^ baseLog
  let b2l : ℚ := 2 ^ (baseLog * 2 * level)
  let qSquare : ℚ := 2 ^ (2 * q)
  let res1 := (n : ℚ) * (level : ℚ) * ((k : ℚ) + 1) * (N : ℚ) * (square b + 2) / 12 * modVar varBsk q
  let res2 := (n : ℚ) * (qSquare - b2l) / (24 * b2l) *
      (1 + (k : ℚ) * (N : ℚ) * (modVar (K.varCoef q) q + square K.expCoef)) +
    (n : ℚ) * (k : ℚ) * (N : ℚ) / 8 * modVar (K.varCoef q) q +
    (n : ℚ) / 16 * square (1 - (k : ℚ) * (N : ℚ) * K.expCoef)
  ofModVar (res1 + res2) q

/-- operators.rs:882-942 `estimate_bit_extraction_noise`, the loop: `cur` is `loop_dispersions[bit]` and
`out` the dispersions pushed so far. `4_f64.powi(total_precision - bit - 1)` has a signed exponent.
`ks` and `pbs` are the estimators of the keyswitch (as a function of the input dispersion) and of the
bootstrap. -/
def bitExtractionLoop (ks : ℚ → ℚ) (pbs : ℚ) (nbBits prec q : Nat) : Nat → Nat → ℚ → List ℚ → List ℚ
  | 0, _, _, out => out
  | fuel + 1, bit, cur, out =>
    let out := out ++ [ks (ofModVar (modVar cur q * (4 : ℚ) ^ ((prec : Int) - bit - 1)) q)]
    let next := if bit ≠ nbBits - 1 then additionNoise cur pbs q else 0
    bitExtractionLoop ks pbs nbBits prec q fuel (bit + 1) next out

/-- operators.rs:882-942 `estimate_bit_extraction_noise`. `none` is the panic of `loop_dispersions[0]` when
no bit is asked for. -/
def bitExtractionNoise (K1 K2 : KeyDispersion) (nbBits prec nIn nKs k N : Nat) (varLwe varKsk varBsk : ℚ)
    (blKsk lvKsk blBsk lvBsk q : Nat) : Option (List ℚ) :=
  if nbBits = 0 then none
  else
    some (bitExtractionLoop (fun v => keyswitchNoise K1 nIn v varKsk blKsk lvKsk q)
      (pbsNoise K2 nKs N k blBsk lvBsk varBsk q) nbBits prec q nbBits 0
      (ofModVar (modVar varLwe q) q) []).reverse

/-- operators.rs:972-1005 `estimate_circuit_bootstrapping_binary_noise`. -/
def circuitBootstrapNoise (K1 K2 : KeyDispersion) (n N k baseLog level : Nat) (varBsk varKsk : ℚ)
    (q : Nat) : ℚ :=
  privateKeyswitchNoise K2 (k * N) (pbsNoise K1 n N k baseLog level varBsk q) varKsk baseLog level 1 q

/-- operators.rs:1031-1054 `estimate_vertical_packing_noise`. -/
def verticalPackingNoise (nbGgsw N k baseLog level : Nat) (varGgsw : ℚ) (q : Nat) : ℚ :=
  pbsNoise binaryKey nbGgsw N k baseLog level varGgsw q

/-- operators.rs:1083-1118 `estimate_wop_pbs_noise`. -/
def wopPbsNoise (K1 K2 : KeyDispersion) (nbBits n N k baseLog level : Nat) (varBsk varKsk : ℚ) (q : Nat) :
    ℚ :=
  verticalPackingNoise nbBits N k baseLog level
    (circuitBootstrapNoise K1 K2 n N k baseLog level varBsk varKsk q) q

end Verif.Npe
