import Verif.Util.Containers
import Verif.Csprng.Model
/-
C40: the generic checks of the engines.

Source: concrete-core/src/specification/engines/*.rs (`spec/`), the functions `perform_generic_checks`, one
definition per engine, in the order of the conditions of the code. Every checked engine function of the
default, FFT and NTT backends calls the function of its engine, with its arguments in the right order and
with 32 or 64 for the ciphertext modulus, before it calls the unchecked one; the exception is
`decode_plaintext_vector`, at the end of this file.

An argument is modelled by the dimensions the check reads. The loading and storing checks are in
Engine/Keys.lean. Products of dimensions of entities are exact (the entity fits in memory); products and sums
of numbers chosen by the caller are computed on `usize`.
-/
namespace Verif.Engine
open Verif.Csprng (Build)

/-! ### What the checks read of the entities -/
namespace M

/-- entities/plaintext_vector.rs, cleartext_vector.rs, encoder_vector.rs, or a slice: its length. -/
structure Vec where
  count : Nat
  deriving DecidableEq, Repr

/-- entities/lwe_ciphertext.rs, lwe_secret_key.rs, lwe_public_key.rs: `lwe_dimension`. -/
structure Lwe where
  lweDim : Nat
  deriving DecidableEq, Repr

/-- entities/lwe_ciphertext_vector.rs: `lwe_dimension`, `lwe_ciphertext_count`. -/
structure LweVec where
  lweDim : Nat
  count : Nat
  deriving DecidableEq, Repr

/-- entities/glwe_ciphertext.rs, glwe_secret_key.rs: `glwe_dimension`, `polynomial_size`. -/
structure Glwe where
  glweDim : Nat
  polySize : Nat
  deriving DecidableEq, Repr

/-- entities/glwe_ciphertext_vector.rs. -/
structure GlweVec where
  glweDim : Nat
  polySize : Nat
  count : Nat
  deriving DecidableEq, Repr

/-- entities/ggsw_ciphertext.rs. -/
structure Ggsw where
  glweDim : Nat
  polySize : Nat
  level : Nat
  baseLog : Nat
  deriving DecidableEq, Repr

/-- entities/lwe_keyswitch_key.rs. -/
structure Ksk where
  inDim : Nat
  outDim : Nat
  level : Nat
  baseLog : Nat
  deriving DecidableEq, Repr

/-- entities/lwe_bootstrap_key.rs. -/
structure Bsk where
  inDim : Nat
  glweDim : Nat
  polySize : Nat
  level : Nat
  baseLog : Nat
  deriving DecidableEq, Repr

/-- entities/lwe_bootstrap_key.rs:52-54 `output_lwe_dimension`. -/
def Bsk.outDim (b : Bsk) : Nat := b.glweDim * b.polySize

/-- entities/lwe_packing_keyswitch_key.rs, lwe_private_functional_packing_keyswitch_key.rs,
lwe_circuit_bootstrap_private_functional_packing_keyswitch_keys.rs; `keyCount` for the last one only. -/
structure Pfpksk where
  inDim : Nat
  outGlweDim : Nat
  outPolySize : Nat
  keyCount : Nat
  deriving DecidableEq, Repr

end M

/-! ### Errors -/

/-- The variants of the `engine_error!` enumerations of spec/*.rs (those with the same name are identified)
and of fft_engine/mod.rs:11-13. -/
inductive EErr where
  | accumulatorCountMismatch | accumulatorGlweDimensionMismatch | accumulatorPolynomialSizeMismatch
  | ciphertextCountMismatch | cleartextCountMismatch | decompositionBaseLogMismatch |
  decompositionLevelCountMismatch | decompositionTooLarge | differentPolynomialSizes |
  emptyContainer | emptyInput | encoderCountMismatch | extractedBitsCountMismatch |
  glweDimensionMismatch | incompatibleLweDimension | inputKeyswitchKeyLweDimensionMismatch |
  inputLweDimensionMismatch | invalidContainerSize | invalidSmallLookUpTableSize |
  keyDimensionMismatch | keysDimensionMismatched | keysLweDimensionMismatch | lweDimensionMismatch |
  malformedLookUpTables | mismatchedGlweDimension | mismatchedInputLweDimension |
  mismatchedPFPKSKCount | mismatchedPolynomialSize | mismatchedPolynomialSizeAndPlaintextVectorCount
  | monomialIndexTooLarge | notEnoughBitsToExtract | nullCiphertextCount | nullDecompositionBaseLog
  | nullDecompositionLevelCount | nullGlweDimension | nullLweDimension | nullPolynomialSize |
  nullPublicKeyZeroEncryptionCount | outputGlweDimensionMismatch | outputLweDimensionMismatch |
  outputPolynomialSizeMismatch | plaintextCountMismatch | polynomialSizeMismatch | sizeMismatch |
  sizeOnePolynomial | unsupportedPolynomialSize
  deriving DecidableEq, Repr

/-- `if cond { return Err(..); }` -/
def bad (c : Bool) (e : EErr) : Res EErr Unit := if c then .err e else .ok ()

/-- Statements executed in order; the first `return` or panic ends the function, `Ok(())` at the end. -/
def checks : List (Res EErr Unit) → Res EErr Unit
  | [] => .ok ()
  | r :: rs =>
    match r with
    | .ok _ => checks rs
    | r => r

/-- A `usize` computation that may panic, followed by a use of its value. -/
def withVal (o : Option Nat) (k : Nat → Res EErr Unit) : Res EErr Unit :=
  match o with
  | none => .panic
  | some v => k v

/-- `a + b` on `usize`. -/
def addUsize (bld : Build) (a b : Nat) : Option Nat :=
  if a + b < 2 ^ 64 then some (a + b)
  else match bld with
    | .debug => none
    | .release => some ((a + b) % 2 ^ 64)

/-- `a % b` on `usize`: panics on a null divisor. -/
def modUsize (a b : Nat) : Option Nat := if b = 0 then none else some (a % b)

/-- `a / b` on `usize`: panics on a null divisor. -/
def divUsize (a b : Nat) : Option Nat := if b = 0 then none else some (a / b)

namespace Checks

/-- spec/cleartext_vector_creation.rs:12-17. -/
def cleartextVectorCreation (values : M.Vec) : Res EErr Unit :=
  checks [bad (values.count == 0) .emptyInput]

/-- spec/cleartext_vector_discarding_conversion.rs:12-21. -/
def cleartextVectorDiscardingConversion (output input : M.Vec) : Res EErr Unit :=
  checks [bad (output.count != input.count) .cleartextCountMismatch]

/-- spec/cleartext_vector_discarding_retrieval.rs:12-23. -/
def cleartextVectorDiscardingRetrieval (output input : M.Vec) : Res EErr Unit :=
  checks [bad (output.count != input.count) .cleartextCountMismatch]

/-- spec/cleartext_vector_encoding.rs:14-26. -/
def cleartextVectorEncoding (encoderVector cleartextVector : M.Vec) : Res EErr Unit :=
  checks [bad (encoderVector.count != cleartextVector.count) .encoderCountMismatch]

/-- spec/ggsw_ciphertext_discarding_conversion.rs:15-37. -/
def ggswCiphertextDiscardingConversion (output input : M.Ggsw) : Res EErr Unit :=
  checks [bad (input.glweDim != output.glweDim) .glweDimensionMismatch,
    bad (input.polySize != output.polySize) .polynomialSizeMismatch,
    bad (input.level != output.level) .decompositionLevelCountMismatch,
    bad (input.baseLog != output.baseLog) .decompositionBaseLogMismatch]

/-- spec/ggsw_ciphertext_scalar_discarding_encryption.rs:14-29. -/
def ggswCiphertextScalarDiscardingEncryption (key : M.Glwe) (output : M.Ggsw) : Res EErr Unit :=
  checks [bad (key.polySize != output.polySize) .polynomialSizeMismatch,
    bad (key.glweDim != output.glweDim) .glweDimensionMismatch]

/-- spec/glwe_ciphertext_decryption.rs:15-30. -/
def glweCiphertextDecryption (key input : M.Glwe) : Res EErr Unit :=
  checks [bad (input.glweDim != key.glweDim) .glweDimensionMismatch,
    bad (input.polySize != key.polySize) .polynomialSizeMismatch]

/-- spec/glwe_ciphertext_discarding_conversion.rs:13-27. -/
def glweCiphertextDiscardingConversion (output input : M.Glwe) : Res EErr Unit :=
  checks [bad (input.glweDim != output.glweDim) .glweDimensionMismatch,
    bad (input.polySize != output.polySize) .polynomialSizeMismatch]

/-- spec/glwe_ciphertext_discarding_decryption.rs:17-37. -/
def glweCiphertextDiscardingDecryption (key : M.Glwe) (output : M.Vec) (input : M.Glwe) : Res EErr Unit :=
  checks [bad (key.polySize != input.polySize) .polynomialSizeMismatch,
    bad (key.glweDim != input.glweDim) .glweDimensionMismatch,
    bad (input.polySize != output.count) .plaintextCountMismatch]

/-- spec/glwe_ciphertext_discarding_encryption.rs:18-38. -/
def glweCiphertextDiscardingEncryption (key output : M.Glwe) (input : M.Vec) : Res EErr Unit :=
  checks [bad (key.polySize != output.polySize) .polynomialSizeMismatch,
    bad (key.glweDim != output.glweDim) .glweDimensionMismatch,
    bad (key.polySize != input.count) .plaintextCountMismatch]

/-- spec/glwe_ciphertext_discarding_trivial_encryption.rs:15-23. -/
def glweCiphertextDiscardingTrivialEncryption (output : M.Glwe) (input : M.Vec) : Res EErr Unit :=
  checks [bad (output.polySize != input.count) .mismatchedPolynomialSizeAndPlaintextVectorCount]

/-- spec/glwe_ciphertext_encryption.rs:16-28. -/
def glweCiphertextEncryption (key : M.Glwe) (input : M.Vec) : Res EErr Unit :=
  checks [bad (key.polySize != input.count) .plaintextCountMismatch]

/-- spec/glwe_ciphertext_ggsw_ciphertext_discarding_external_product.rs:17-37. -/
def glweCiphertextGgswCiphertextDiscardingExternalProduct (glweInput : M.Glwe) (ggswInput : M.Ggsw) (output
      : M.Glwe) : Res EErr Unit :=
  checks [bad (glweInput.polySize != ggswInput.polySize || glweInput.polySize != output.polySize)
      .polynomialSizeMismatch,
    bad (glweInput.glweDim != ggswInput.glweDim || glweInput.glweDim != output.glweDim)
      .polynomialSizeMismatch]

/-- spec/glwe_ciphertext_ggsw_ciphertext_external_product.rs:15-30. -/
def glweCiphertextGgswCiphertextExternalProduct (glweInput : M.Glwe) (ggswInput : M.Ggsw) : Res EErr Unit :=
  checks [bad (glweInput.polySize != ggswInput.polySize) .polynomialSizeMismatch,
    bad (glweInput.glweDim != ggswInput.glweDim) .glweDimensionMismatch]

/-- spec/glwe_ciphertext_vector_decryption.rs:16-31. -/
def glweCiphertextVectorDecryption (key : M.Glwe) (input : M.GlweVec) : Res EErr Unit :=
  checks [bad (key.glweDim != input.glweDim) .glweDimensionMismatch,
    bad (key.polySize != input.polySize) .polynomialSizeMismatch]

/-- spec/glwe_ciphertext_vector_discarding_conversion.rs:14-32. -/
def glweCiphertextVectorDiscardingConversion (output input : M.GlweVec) : Res EErr Unit :=
  checks [bad (input.glweDim != output.glweDim) .glweDimensionMismatch,
    bad (input.polySize != output.polySize) .polynomialSizeMismatch,
    bad (input.count != output.count) .ciphertextCountMismatch]

/-- spec/glwe_ciphertext_vector_discarding_decryption.rs:19-41. -/
def glweCiphertextVectorDiscardingDecryption (key : M.Glwe) (output : M.Vec) (input : M.GlweVec)
      : Res EErr Unit :=
  checks [bad (key.glweDim != input.glweDim) .glweDimensionMismatch,
    bad (key.polySize != input.polySize) .polynomialSizeMismatch,
    bad (output.count != (input.polySize * input.count)) .plaintextCountMismatch]

/-- spec/glwe_ciphertext_vector_discarding_encryption.rs:20-42. -/
def glweCiphertextVectorDiscardingEncryption (key : M.Glwe) (output : M.GlweVec) (input : M.Vec)
      : Res EErr Unit :=
  checks [bad (key.glweDim != output.glweDim) .glweDimensionMismatch,
    bad (key.polySize != output.polySize) .polynomialSizeMismatch,
    bad (output.polySize * output.count != input.count) .plaintextCountMismatch]

/-- spec/glwe_ciphertext_vector_zero_encryption.rs:13-18. -/
def glweCiphertextVectorZeroEncryption (count : Nat) : Res EErr Unit :=
  checks [bad (count == 0) .nullCiphertextCount]

/-- spec/glwe_ciphertexts_ggsw_ciphertext_fusing_cmux.rs:17-38. -/
def glweCiphertextsGgswCiphertextFusingCmux (glweOutput glweInput : M.Glwe) (ggsw : M.Ggsw) : Res EErr Unit :=
  checks [bad ((glweInput.polySize != glweOutput.polySize) || (glweOutput.polySize != ggsw.polySize))
      .polynomialSizeMismatch,
    bad ((glweInput.glweDim != glweOutput.glweDim) || (glweOutput.glweDim != ggsw.glweDim))
      .glweDimensionMismatch]

/-- spec/glwe_secret_key_discarding_conversion.rs:13-26. -/
def glweSecretKeyDiscardingConversion (output input : M.Glwe) : Res EErr Unit :=
  checks [bad (input.glweDim != output.glweDim) .glweDimensionMismatch,
    bad (input.polySize != output.polySize) .polynomialSizeMismatch]

/-- spec/glwe_secret_key_generation.rs:16-33. -/
def glweSecretKeyGeneration (glweDimension polynomialSize : Nat) : Res EErr Unit :=
  checks [bad (glweDimension == 0) .nullGlweDimension,
    bad (polynomialSize == 0) .nullPolynomialSize,
    bad (polynomialSize == 1) .sizeOnePolynomial]

/-- spec/glwe_seeded_ciphertext_encryption.rs:17-29. -/
def glweSeededCiphertextEncryption (key : M.Glwe) (input : M.Vec) : Res EErr Unit :=
  checks [bad (key.polySize != input.count) .plaintextCountMismatch]

/-- spec/lwe_bootstrap_key_discarding_conversion.rs:16-41. -/
def lweBootstrapKeyDiscardingConversion (output input : M.Bsk) : Res EErr Unit :=
  checks [bad (input.inDim != output.inDim) .lweDimensionMismatch,
    bad (input.glweDim != output.glweDim) .glweDimensionMismatch,
    bad (input.polySize != output.polySize) .polynomialSizeMismatch,
    bad (input.baseLog != output.baseLog) .decompositionBaseLogMismatch,
    bad (input.level != output.level) .decompositionLevelCountMismatch]

/-- spec/lwe_ciphertext_cleartext_discarding_multiplication.rs:14-26. -/
def lweCiphertextCleartextDiscardingMultiplication (output input1 : M.Lwe) : Res EErr Unit :=
  checks [bad (output.lweDim != input1.lweDim) .lweDimensionMismatch]

/-- spec/lwe_ciphertext_creation.rs:12-17. -/
def lweCiphertextCreation (containerLength : Nat) : Res EErr Unit :=
  checks [bad (containerLength == 0) .emptyContainer]

/-- spec/lwe_ciphertext_discarding_addition.rs:12-27. -/
def lweCiphertextDiscardingAddition (output input1 input2 : M.Lwe) : Res EErr Unit :=
  checks [bad (output.lweDim != input1.lweDim || output.lweDim != input2.lweDim) .lweDimensionMismatch]

/-- spec/lwe_ciphertext_discarding_bootstrap.rs:19-45. -/
def lweCiphertextDiscardingBootstrap (output input : M.Lwe) (acc : M.Glwe) (bsk : M.Bsk) : Res EErr Unit :=
  checks [bad (input.lweDim != bsk.inDim) .inputLweDimensionMismatch,
    bad (acc.polySize != bsk.polySize) .accumulatorPolynomialSizeMismatch,
    bad (acc.glweDim != bsk.glweDim) .accumulatorGlweDimensionMismatch,
    bad (output.lweDim != bsk.outDim) .outputLweDimensionMismatch]

/-- spec/lwe_ciphertext_discarding_conversion.rs:12-21. -/
def lweCiphertextDiscardingConversion (output input : M.Lwe) : Res EErr Unit :=
  checks [bad (input.lweDim != output.lweDim) .lweDimensionMismatch]

/-- spec/lwe_ciphertext_discarding_decryption.rs:13-25. -/
def lweCiphertextDiscardingDecryption (key input : M.Lwe) : Res EErr Unit :=
  checks [bad (key.lweDim != input.lweDim) .lweDimensionMismatch]

/-- spec/lwe_ciphertext_discarding_encryption.rs:14-26. -/
def lweCiphertextDiscardingEncryption (key output : M.Lwe) : Res EErr Unit :=
  checks [bad (key.lweDim != output.lweDim) .lweDimensionMismatch]

/-- spec/lwe_ciphertext_discarding_extraction.rs:15-33. -/
def lweCiphertextDiscardingExtraction (output : M.Lwe) (input : M.Glwe) (nth : Nat) : Res EErr Unit :=
  checks [bad (output.lweDim != (input.polySize * input.glweDim)) .sizeMismatch,
    bad (nth >= input.polySize) .monomialIndexTooLarge]

/-- spec/lwe_ciphertext_discarding_keyswitch.rs:16-33. -/
def lweCiphertextDiscardingKeyswitch (output input : M.Lwe) (ksk : M.Ksk) : Res EErr Unit :=
  checks [bad (input.lweDim != ksk.inDim) .inputLweDimensionMismatch,
    bad (output.lweDim != ksk.outDim) .outputLweDimensionMismatch]

/-- spec/lwe_ciphertext_discarding_opposite.rs:12-25. -/
def lweCiphertextDiscardingOpposite (output input : M.Lwe) : Res EErr Unit :=
  checks [bad (input.lweDim != output.lweDim) .lweDimensionMismatch]

/-- spec/lwe_ciphertext_discarding_public_key_encryption.rs:12-24. -/
def lweCiphertextDiscardingPublicKeyEncryption (key output : M.Lwe) : Res EErr Unit :=
  checks [bad (key.lweDim != output.lweDim) .lweDimensionMismatch]

/-- spec/lwe_ciphertext_discarding_subtraction.rs:12-27. -/
def lweCiphertextDiscardingSubtraction (output input1 input2 : M.Lwe) : Res EErr Unit :=
  checks [bad (output.lweDim != input1.lweDim || output.lweDim != input2.lweDim) .lweDimensionMismatch]

/-- spec/lwe_ciphertext_fusing_addition.rs:12-24. -/
def lweCiphertextFusingAddition (output input : M.Lwe) : Res EErr Unit :=
  checks [bad (output.lweDim != input.lweDim) .lweDimensionMismatch]

/-- spec/lwe_ciphertext_fusing_subtraction.rs:12-24. -/
def lweCiphertextFusingSubtraction (output input : M.Lwe) : Res EErr Unit :=
  checks [bad (output.lweDim != input.lweDim) .lweDimensionMismatch]

/-- spec/lwe_ciphertext_plaintext_discarding_addition.rs:12-24. -/
def lweCiphertextPlaintextDiscardingAddition (output input1 : M.Lwe) : Res EErr Unit :=
  checks [bad (input1.lweDim != output.lweDim) .lweDimensionMismatch]

/-- spec/lwe_ciphertext_plaintext_discarding_subtraction.rs:12-24. -/
def lweCiphertextPlaintextDiscardingSubtraction (output input1 : M.Lwe) : Res EErr Unit :=
  checks [bad (input1.lweDim != output.lweDim) .lweDimensionMismatch]

/-- spec/lwe_ciphertext_vector_cleartext_vector_discarding_multiplication.rs:16-33. -/
def lweCiphertextVectorCleartextVectorDiscardingMultiplication (output input1 : M.LweVec) (input2 : M.Vec)
      : Res EErr Unit :=
  checks [bad (output.lweDim != input1.lweDim) .lweDimensionMismatch,
    bad (input1.count != input2.count) .cleartextCountMismatch]

/-- spec/lwe_ciphertext_vector_creation.rs:13-18. -/
def lweCiphertextVectorCreation (containerLength : Nat) : Res EErr Unit :=
  checks [bad (containerLength == 0) .emptyContainer]

/-- spec/lwe_ciphertext_vector_decryption.rs:14-26. -/
def lweCiphertextVectorDecryption (key : M.Lwe) (input : M.LweVec) : Res EErr Unit :=
  checks [bad (key.lweDim != input.lweDim) .lweDimensionMismatch]

/-- spec/lwe_ciphertext_vector_discarding_addition.rs:13-33. -/
def lweCiphertextVectorDiscardingAddition (output input1 input2 : M.LweVec) : Res EErr Unit :=
  checks [bad (output.lweDim != input1.lweDim || output.lweDim != input2.lweDim) .lweDimensionMismatch,
    bad (output.count != input1.count || output.count != input2.count) .ciphertextCountMismatch]

/-- spec/lwe_ciphertext_vector_discarding_affine_transformation.rs:16-33. -/
def lweCiphertextVectorDiscardingAffineTransformation (output : M.Lwe) (inputs : M.LweVec) (weights : M.Vec)
      : Res EErr Unit :=
  checks [bad (output.lweDim != inputs.lweDim) .lweDimensionMismatch,
    bad (inputs.count != weights.count) .cleartextCountMismatch]

/-- spec/lwe_ciphertext_vector_discarding_bootstrap.rs:20-60. -/
def lweCiphertextVectorDiscardingBootstrap (output input : M.LweVec) (acc : M.GlweVec) (bsk : M.Bsk)
      : Res EErr Unit :=
  checks [bad (bsk.inDim != input.lweDim) .inputLweDimensionMismatch,
    bad (bsk.outDim != output.lweDim) .outputLweDimensionMismatch,
    bad (bsk.glweDim != acc.glweDim) .accumulatorGlweDimensionMismatch,
    bad (bsk.polySize != acc.polySize) .accumulatorPolynomialSizeMismatch,
    bad (acc.count != input.count) .accumulatorCountMismatch,
    bad (input.count != output.count) .ciphertextCountMismatch]

/-- spec/lwe_ciphertext_vector_discarding_circuit_bootstrap_boolean.rs:29-72. -/
def lweCiphertextVectorDiscardingCircuitBootstrapBoolean (inputLweCt : M.Lwe) (outputGgswCt : M.Ggsw)
      (bootstrapKey : M.Bsk) (cbsPfpksk : M.Pfpksk) : Res EErr Unit :=
  checks [bad (cbsPfpksk.inDim != bootstrapKey.outDim) .keysDimensionMismatched,
    bad (cbsPfpksk.outPolySize != outputGgswCt.polySize) .mismatchedPolynomialSize,
    bad (cbsPfpksk.outGlweDim != outputGgswCt.glweDim) .mismatchedGlweDimension,
    bad (cbsPfpksk.keyCount != outputGgswCt.level * (outputGgswCt.glweDim + 1)) .mismatchedPFPKSKCount,
    bad (inputLweCt.lweDim != bootstrapKey.inDim) .mismatchedInputLweDimension]

/-- spec/lwe_ciphertext_vector_discarding_conversion.rs:13-26. -/
def lweCiphertextVectorDiscardingConversion (output input : M.LweVec) : Res EErr Unit :=
  checks [bad (input.lweDim != output.lweDim) .lweDimensionMismatch,
    bad (input.count != output.count) .ciphertextCountMismatch]

/-- spec/lwe_ciphertext_vector_discarding_decryption.rs:16-34. -/
def lweCiphertextVectorDiscardingDecryption (key : M.Lwe) (output : M.Vec) (input : M.LweVec)
      : Res EErr Unit :=
  checks [bad (key.lweDim != input.lweDim) .lweDimensionMismatch,
    bad (input.count != output.count) .plaintextCountMismatch]

/-- spec/lwe_ciphertext_vector_discarding_encryption.rs:17-35. -/
def lweCiphertextVectorDiscardingEncryption (key : M.Lwe) (output : M.LweVec) (input : M.Vec)
      : Res EErr Unit :=
  checks [bad (key.lweDim != output.lweDim) .lweDimensionMismatch,
    bad (input.count != output.count) .plaintextCountMismatch]

/-- spec/lwe_ciphertext_vector_discarding_keyswitch.rs:17-39. -/
def lweCiphertextVectorDiscardingKeyswitch (output input : M.LweVec) (ksk : M.Ksk) : Res EErr Unit :=
  checks [bad (input.lweDim != ksk.inDim) .inputLweDimensionMismatch,
    bad (output.lweDim != ksk.outDim) .outputLweDimensionMismatch,
    bad (input.count != output.count) .ciphertextCountMismatch]

/-- spec/lwe_ciphertext_vector_discarding_opposite.rs:13-29. -/
def lweCiphertextVectorDiscardingOpposite (output input : M.LweVec) : Res EErr Unit :=
  checks [bad (input.lweDim != output.lweDim) .lweDimensionMismatch,
    bad (input.count != output.count) .ciphertextCountMismatch]

/-- spec/lwe_ciphertext_vector_discarding_subtraction.rs:13-33. -/
def lweCiphertextVectorDiscardingSubtraction (output input1 input2 : M.LweVec) : Res EErr Unit :=
  checks [bad (output.lweDim != input1.lweDim || output.lweDim != input2.lweDim) .lweDimensionMismatch,
    bad (output.count != input1.count || output.count != input2.count) .ciphertextCountMismatch]

/-- spec/lwe_ciphertext_vector_fusing_addition.rs:13-29. -/
def lweCiphertextVectorFusingAddition (output input : M.LweVec) : Res EErr Unit :=
  checks [bad (input.lweDim != output.lweDim) .lweDimensionMismatch,
    bad (input.count != output.count) .ciphertextCountMismatch]

/-- spec/lwe_ciphertext_vector_fusing_subtraction.rs:13-29. -/
def lweCiphertextVectorFusingSubtraction (output input : M.LweVec) : Res EErr Unit :=
  checks [bad (input.lweDim != output.lweDim) .lweDimensionMismatch,
    bad (input.count != output.count) .ciphertextCountMismatch]

/-- spec/lwe_ciphertext_vector_glwe_ciphertext_discarding_packing_keyswitch.rs:23-49. -/
def lweCiphertextVectorGlweCiphertextDiscardingPackingKeyswitch (output : M.Glwe) (input : M.LweVec) (ksk
      : M.Pfpksk) : Res EErr Unit :=
  checks [bad (input.lweDim != ksk.inDim) .inputLweDimensionMismatch,
    bad (output.glweDim != ksk.outGlweDim) .outputGlweDimensionMismatch,
    bad (output.polySize != ksk.outPolySize) .outputPolynomialSizeMismatch,
    bad (input.count > output.polySize) .ciphertextCountMismatch]

/-- spec/lwe_ciphertext_vector_glwe_ciphertext_discarding_private_functional_packing_keyswitch.rs:24-54. -/
def lweCiphertextVectorGlweCiphertextDiscardingPrivateFunctionalPackingKeyswitch (output : M.Glwe) (input
      : M.LweVec) (ksk : M.Pfpksk) : Res EErr Unit :=
  checks [bad (input.lweDim != ksk.inDim) .inputLweDimensionMismatch,
    bad (output.glweDim != ksk.outGlweDim) .outputGlweDimensionMismatch,
    bad (output.polySize != ksk.outPolySize) .outputPolynomialSizeMismatch,
    bad (input.count > output.polySize) .ciphertextCountMismatch]

/-- spec/lwe_ciphertext_vector_plaintext_vector_discarding_addition.rs:18-42. -/
def lweCiphertextVectorPlaintextVectorDiscardingAddition (output input1 : M.LweVec) (input2 : M.Vec)
      : Res EErr Unit :=
  checks [bad (input1.lweDim != output.lweDim) .lweDimensionMismatch,
    bad (output.count != input1.count) .ciphertextCountMismatch,
    bad (input1.count != input2.count) .plaintextCountMismatch]

/-- spec/lwe_ciphertext_vector_zero_encryption.rs:13-18. -/
def lweCiphertextVectorZeroEncryption (count : Nat) : Res EErr Unit :=
  checks [bad (count == 0) .nullCiphertextCount]

/-- spec/lwe_keyswitch_key_discarding_conversion.rs:15-37. -/
def lweKeyswitchKeyDiscardingConversion (output input : M.Ksk) : Res EErr Unit :=
  checks [bad (input.inDim != output.inDim) .inputLweDimensionMismatch,
    bad (input.outDim != output.outDim) .outputLweDimensionMismatch,
    bad (input.baseLog != output.baseLog) .decompositionBaseLogMismatch,
    bad (input.level != output.level) .decompositionLevelCountMismatch]

/-- spec/lwe_public_key_generation.rs:13-20. -/
def lwePublicKeyGeneration (lwePublicKeyZeroEncryptionCount : Nat) : Res EErr Unit :=
  checks [bad (lwePublicKeyZeroEncryptionCount == 0) .nullPublicKeyZeroEncryptionCount]

/-- spec/lwe_secret_key_discarding_conversion.rs:12-21. -/
def lweSecretKeyDiscardingConversion (output input : M.Lwe) : Res EErr Unit :=
  checks [bad (input.lweDim != output.lweDim) .lweDimensionMismatch]

/-- spec/lwe_secret_key_generation.rs:12-17. -/
def lweSecretKeyGeneration (lweDimension : Nat) : Res EErr Unit :=
  checks [bad (lweDimension == 0) .nullLweDimension]

/-- spec/plaintext_vector_creation.rs:12-17. -/
def plaintextVectorCreation (values : M.Vec) : Res EErr Unit :=
  checks [bad (values.count == 0) .emptyInput]

/-- spec/plaintext_vector_decoding.rs:14-26. -/
def plaintextVectorDecoding (encoder input : M.Vec) : Res EErr Unit :=
  checks [bad (input.count != encoder.count) .encoderCountMismatch]

/-- spec/plaintext_vector_discarding_conversion.rs:12-21. -/
def plaintextVectorDiscardingConversion (output input : M.Vec) : Res EErr Unit :=
  checks [bad (input.count != output.count) .plaintextCountMismatch]

/-- spec/plaintext_vector_discarding_retrieval.rs:12-23. -/
def plaintextVectorDiscardingRetrieval (output input : M.Vec) : Res EErr Unit :=
  checks [bad (output.count != input.count) .plaintextCountMismatch]

/-! ### Checks on numbers chosen by the caller -/

/-- The three statements on the decomposition of a generated key. -/
def decomposition (bld : Build) (baseLog level modLog : Nat) : List (Res EErr Unit) :=
  [bad (baseLog == 0) .nullDecompositionBaseLog,
   bad (level == 0) .nullDecompositionLevelCount,
   withVal (bld.mulUsize baseLog level) fun v => bad (decide (v > modLog)) .decompositionTooLarge]

/-- spec/lwe_bootstrap_key_generation.rs:17-32; the same statements in lwe_seeded_bootstrap_key_generation.rs:17-32,
and, with the factors of the product in the other order, in lwe_keyswitch_key_generation.rs:17-35,
lwe_seeded_keyswitch_key_generation.rs:17-35, lwe_packing_keyswitch_key_generation.rs:18-36,
lwe_circuit_bootstrap_private_functional_packing_keyswitch_keys_generation.rs:21-39 and
lwe_circuit_bootstrap_private_functional_packing_keyswitch_keys_conversion.rs:21-39. -/
def keyGeneration (bld : Build) (baseLog level modLog : Nat) : Res EErr Unit :=
  checks (decomposition bld baseLog level modLog)

/-- spec/lwe_private_functional_packing_keyswitch_key_generation.rs:25-48. -/
def lwePrivateFunctionalPackingKeyswitchKeyGeneration (bld : Build) (level baseLog modLog keyPolySize
    polySize : Nat) : Res EErr Unit :=
  checks (decomposition bld baseLog level modLog ++
    [bad (keyPolySize != polySize) .differentPolynomialSizes])

/-- spec/lwe_keyswitch_key_creation.rs:18-40. -/
def lweKeyswitchKeyCreation (bld : Build) (len outDim baseLog level modLog : Nat) : Res EErr Unit :=
  checks (decomposition bld baseLog level modLog ++
    [withVal (addUsize bld outDim 1) fun s =>
      withVal (bld.mulUsize level s) fun v =>
        withVal (modUsize len v) fun r => bad (r != 0) .invalidContainerSize])

/-- spec/lwe_bootstrap_key_creation.rs:18-42. -/
def lweBootstrapKeyCreation (bld : Build) (len glweSize polySize baseLog level modLog : Nat) :
    Res EErr Unit :=
  checks (decomposition bld baseLog level modLog ++
    [withVal (bld.mulUsize level glweSize) fun a =>
      withVal (bld.mulUsize a glweSize) fun b =>
        withVal (bld.mulUsize b polySize) fun v =>
          withVal (modUsize len v) fun r => bad (r != 0) .invalidContainerSize])

/-- spec/glwe_ciphertext_creation.rs:18-30. -/
def glweCiphertextCreation (len polySize : Nat) : Res EErr Unit :=
  checks [bad (len == 0) .emptyContainer,
    withVal (modUsize len polySize) fun r => bad (r != 0) .invalidContainerSize]

/-- spec/glwe_ciphertext_vector_creation.rs:18-31. -/
def glweCiphertextVectorCreation (bld : Build) (len polySize glweSize : Nat) : Res EErr Unit :=
  checks [bad (len == 0) .emptyContainer,
    withVal (bld.mulUsize polySize glweSize) fun v =>
      withVal (modUsize len v) fun r => bad (r != 0) .invalidContainerSize]

/-- spec/glwe_ciphertext_vector_encryption.rs:16-28, glwe_seeded_ciphertext_vector_encryption.rs:16-28. -/
def glweCiphertextVectorEncryption (key : M.Glwe) (input : M.Vec) : Res EErr Unit :=
  checks [withVal (modUsize input.count key.polySize) fun r => bad (r != 0) .plaintextCountMismatch]

/-- spec/glwe_ciphertext_vector_trivial_encryption.rs:15-26. -/
def glweCiphertextVectorTrivialEncryption (count : Nat) (input : M.Vec) : Res EErr Unit :=
  checks [withVal (modUsize input.count count) fun r => bad (r != 0) .plaintextCountMismatch]

/-- spec/lwe_to_glwe_secret_key_transformation.rs:17-34. -/
def lweToGlweSecretKeyTransformation (key : M.Lwe) (polySize : Nat) : Res EErr Unit :=
  checks [bad (polySize == 0) .nullPolynomialSize,
    bad (polySize == 1) .sizeOnePolynomial,
    withVal (modUsize key.lweDim polySize) fun r => bad (r != 0) .incompatibleLweDimension]

/-- spec/lwe_ciphertext_discarding_bit_extraction.rs:26-65. -/
def lweCiphertextDiscardingBitExtraction (bld : Build) (output : M.LweVec) (input : M.Lwe) (bsk : M.Bsk)
    (ksk : M.Ksk) (bits modLog deltaLog : Nat) : Res EErr Unit :=
  checks [bad (input.lweDim != bsk.outDim) .inputLweDimensionMismatch,
    bad (input.lweDim != ksk.inDim) .inputKeyswitchKeyLweDimensionMismatch,
    bad (output.lweDim != ksk.outDim) .outputLweDimensionMismatch,
    bad (output.count != bits) .extractedBitsCountMismatch,
    bad (ksk.outDim != bsk.inDim) .keyDimensionMismatch,
    withVal (addUsize bld bits deltaLog) fun v => bad (decide (modLog < v)) .notEnoughBitsToExtract]

/-- spec/lwe_ciphertext_vector_discarding_circuit_bootstrap_boolean_vertical_packing.rs:41-89. -/
def verticalPacking (bld : Build) (input output : M.LweVec) (bsk : M.Bsk) (luts : M.Vec)
    (level baseLog : Nat) (pfpksk : M.Pfpksk) (modLog : Nat) : Res EErr Unit :=
  checks [bad (bsk.outDim != pfpksk.inDim) .keysLweDimensionMismatch,
    bad (input.lweDim != bsk.inDim) .inputLweDimensionMismatch,
    bad (output.lweDim != pfpksk.outGlweDim * pfpksk.outPolySize) .outputLweDimensionMismatch,
    withVal (bld.mulUsize pfpksk.outPolySize output.count) fun v =>
      withVal (modUsize luts.count v) fun r => bad (r != 0) .malformedLookUpTables,
    withVal (divUsize luts.count output.count) fun s =>
      bad (decide (s < pfpksk.outPolySize)) .invalidSmallLookUpTableSize,
    bad (level == 0) .nullDecompositionBaseLog,
    bad (level == 0) .nullDecompositionLevelCount,
    withVal (bld.mulUsize baseLog level) fun v => bad (decide (v > modLog)) .decompositionTooLarge]

/-- fft_engine/mod.rs:29-35 `perform_fft_checks` (fft_parallel_engine/mod.rs:33-39). -/
def fft (polySize : Nat) : Res EErr Unit :=
  if Nat.isPowerOfTwo polySize ∧ 32 ≤ polySize then .ok () else .err .unsupportedPolynomialSize

end Checks

/-! ### Checked functions -/

/-- The body of every checked engine function that writes to an output argument: the generic checks, then
`unsafe { self.xxx_unchecked(output, ..) }; Ok(())`. The result, and the output argument after the call. -/
def checkedCall {α : Type} (chk : Res EErr Unit) (body : α → α) (out : α) : Res EErr Unit × α :=
  match chk with
  | .ok _ => (.ok (), body out)
  | r => (r, out)

/-- default_engine/plaintext_vector_decoding.rs:45-66 `decode_plaintext_vector` and its unchecked version: no
check; `dec e p` is `enc.decode(*p).0`. -/
def decodePlaintextVector {ε π κ : Type} (dec : ε → π → κ) (encoder : List ε) (input : List π) :
    Res EErr (List κ) :=
  .ok ((encoder.zip input).map fun x => dec x.1 x.2)

end Verif.Engine
