import Verif.Engine.Checks
/-
C40: the documented preconditions of the engines, transcribed from the strings of `engine_error!` in
spec/*.rs: for each variant, the condition its string says must hold.
-/
namespace Verif.Engine

/-- Documented preconditions: each condition with the error that documents it. -/
abbrev Doc := List (Prop × EErr)

/-- The check reports exactly the documented violations: it accepts when every documented condition holds, and
when one of them fails it returns the error documented for a condition that fails. In particular it never
panics. -/
def Reports (r : Res EErr Unit) (doc : Doc) : Prop :=
  ((∀ d ∈ doc, d.1) → r = .ok ()) ∧ ((∃ d ∈ doc, ¬ d.1) → ∃ d ∈ doc, ¬ d.1 ∧ r = .err d.2)

namespace Doc

/-- spec/cleartext_vector_creation.rs:5-8. -/
def cleartextVectorCreation (values : M.Vec) : Doc :=
  [(0 < values.count, .emptyInput)]

/-- spec/cleartext_vector_discarding_conversion.rs:5-8. -/
def cleartextVectorDiscardingConversion (output input : M.Vec) : Doc :=
  [(input.count = output.count, .cleartextCountMismatch)]

/-- spec/cleartext_vector_discarding_retrieval.rs:5-8. -/
def cleartextVectorDiscardingRetrieval (output input : M.Vec) : Doc :=
  [(input.count = output.count, .cleartextCountMismatch)]

/-- spec/cleartext_vector_encoding.rs:7-10. -/
def cleartextVectorEncoding (encoderVector cleartextVector : M.Vec) : Doc :=
  [(encoderVector.count = cleartextVector.count, .encoderCountMismatch)]

/-- spec/ggsw_ciphertext_discarding_conversion.rs:5-11. -/
def ggswCiphertextDiscardingConversion (output input : M.Ggsw) : Doc :=
  [(input.glweDim = output.glweDim, .glweDimensionMismatch),
   (input.polySize = output.polySize, .polynomialSizeMismatch),
   (input.level = output.level, .decompositionLevelCountMismatch),
   (input.baseLog = output.baseLog, .decompositionBaseLogMismatch)]

/-- spec/ggsw_ciphertext_scalar_discarding_encryption.rs:6-10. -/
def ggswCiphertextScalarDiscardingEncryption (key : M.Glwe) (output : M.Ggsw) : Doc :=
  [(key.glweDim = output.glweDim, .glweDimensionMismatch),
   (key.polySize = output.polySize, .polynomialSizeMismatch)]

/-- spec/glwe_ciphertext_decryption.rs:7-11. -/
def glweCiphertextDecryption (key input : M.Glwe) : Doc :=
  [(input.glweDim = key.glweDim, .glweDimensionMismatch),
   (input.polySize = key.polySize, .polynomialSizeMismatch)]

/-- spec/glwe_ciphertext_discarding_conversion.rs:5-9. -/
def glweCiphertextDiscardingConversion (output input : M.Glwe) : Doc :=
  [(input.glweDim = output.glweDim, .glweDimensionMismatch),
   (input.polySize = output.polySize, .polynomialSizeMismatch)]

/-- spec/glwe_ciphertext_discarding_decryption.rs:7-13. -/
def glweCiphertextDiscardingDecryption (key : M.Glwe) (output : M.Vec) (input : M.Glwe) : Doc :=
  [(key.glweDim = input.glweDim, .glweDimensionMismatch),
   (key.polySize = input.polySize, .polynomialSizeMismatch),
   (output.count = input.polySize, .plaintextCountMismatch)]

/-- spec/glwe_ciphertext_discarding_encryption.rs:8-14. -/
def glweCiphertextDiscardingEncryption (key output : M.Glwe) (input : M.Vec) : Doc :=
  [(key.glweDim = output.glweDim, .glweDimensionMismatch),
   (key.polySize = output.polySize, .polynomialSizeMismatch),
   (input.count = output.polySize, .plaintextCountMismatch)]

/-- spec/glwe_ciphertext_discarding_trivial_encryption.rs:7-11. -/
def glweCiphertextDiscardingTrivialEncryption (output : M.Glwe) (input : M.Vec) : Doc :=
  [(input.count = output.polySize, .mismatchedPolynomialSizeAndPlaintextVectorCount)]

/-- spec/glwe_ciphertext_encryption.rs:8-12. -/
def glweCiphertextEncryption (key : M.Glwe) (input : M.Vec) : Doc :=
  [(input.count = key.polySize, .plaintextCountMismatch)]

/-- spec/glwe_ciphertext_ggsw_ciphertext_discarding_external_product.rs:6-11. -/
def glweCiphertextGgswCiphertextDiscardingExternalProduct (glweInput : M.Glwe) (ggswInput : M.Ggsw) (output
      : M.Glwe) : Doc :=
  [(glweInput.polySize = ggswInput.polySize ∧ output.polySize = ggswInput.polySize, .polynomialSizeMismatch),
   (glweInput.glweDim = ggswInput.glweDim ∧ output.glweDim = ggswInput.glweDim, .glweDimensionMismatch)]

/-- spec/glwe_ciphertext_ggsw_ciphertext_external_product.rs:6-11. -/
def glweCiphertextGgswCiphertextExternalProduct (glweInput : M.Glwe) (ggswInput : M.Ggsw) : Doc :=
  [(ggswInput.polySize = glweInput.polySize, .polynomialSizeMismatch),
   (ggswInput.glweDim = glweInput.glweDim, .glweDimensionMismatch)]

/-- spec/glwe_ciphertext_vector_decryption.rs:7-12. -/
def glweCiphertextVectorDecryption (key : M.Glwe) (input : M.GlweVec) : Doc :=
  [(key.glweDim = input.glweDim, .glweDimensionMismatch),
   (key.polySize = input.polySize, .polynomialSizeMismatch)]

/-- spec/glwe_ciphertext_vector_discarding_conversion.rs:5-10. -/
def glweCiphertextVectorDiscardingConversion (output input : M.GlweVec) : Doc :=
  [(input.glweDim = output.glweDim, .glweDimensionMismatch),
   (input.polySize = output.polySize, .polynomialSizeMismatch),
   (input.count = output.count, .ciphertextCountMismatch)]

/-- spec/glwe_ciphertext_vector_discarding_decryption.rs:7-15. -/
def glweCiphertextVectorDiscardingDecryption (key : M.Glwe) (output : M.Vec) (input : M.GlweVec) : Doc :=
  [(key.glweDim = input.glweDim, .glweDimensionMismatch),
   (key.polySize = input.polySize, .polynomialSizeMismatch),
   (output.count = input.polySize * input.count, .plaintextCountMismatch)]

/-- spec/glwe_ciphertext_vector_discarding_encryption.rs:8-16. -/
def glweCiphertextVectorDiscardingEncryption (key : M.Glwe) (output : M.GlweVec) (input : M.Vec) : Doc :=
  [(key.glweDim = output.glweDim, .glweDimensionMismatch),
   (key.polySize = output.polySize, .polynomialSizeMismatch),
   (input.count = output.polySize * output.count, .plaintextCountMismatch)]

/-- spec/glwe_ciphertext_vector_zero_encryption.rs:6-9. -/
def glweCiphertextVectorZeroEncryption (count : Nat) : Doc :=
  [(0 < count, .nullCiphertextCount)]

/-- spec/glwe_ciphertexts_ggsw_ciphertext_fusing_cmux.rs:6-13. -/
def glweCiphertextsGgswCiphertextFusingCmux (glweOutput glweInput : M.Glwe) (ggsw : M.Ggsw) : Doc :=
  [(ggsw.polySize = glweOutput.polySize ∧ ggsw.polySize = glweInput.polySize, .polynomialSizeMismatch),
   (ggsw.glweDim = glweOutput.glweDim ∧ ggsw.glweDim = glweInput.glweDim, .glweDimensionMismatch)]

/-- spec/glwe_secret_key_discarding_conversion.rs:5-9. -/
def glweSecretKeyDiscardingConversion (output input : M.Glwe) : Doc :=
  [(input.glweDim = output.glweDim, .glweDimensionMismatch),
   (input.polySize = output.polySize, .polynomialSizeMismatch)]

/-- spec/glwe_secret_key_generation.rs:6-12. -/
def glweSecretKeyGeneration (glweDimension polynomialSize : Nat) : Doc :=
  [(0 < glweDimension, .nullGlweDimension),
   (0 < polynomialSize, .nullPolynomialSize),
   (1 < polynomialSize, .sizeOnePolynomial)]

/-- spec/glwe_seeded_ciphertext_encryption.rs:9-13. -/
def glweSeededCiphertextEncryption (key : M.Glwe) (input : M.Vec) : Doc :=
  [(input.count = key.polySize, .plaintextCountMismatch)]

/-- spec/lwe_bootstrap_key_discarding_conversion.rs:5-12. -/
def lweBootstrapKeyDiscardingConversion (output input : M.Bsk) : Doc :=
  [(input.inDim = output.inDim, .lweDimensionMismatch),
   (input.glweDim = output.glweDim, .glweDimensionMismatch),
   (input.polySize = output.polySize, .polynomialSizeMismatch),
   (input.baseLog = output.baseLog, .decompositionBaseLogMismatch),
   (input.level = output.level, .decompositionLevelCountMismatch)]

/-- spec/lwe_ciphertext_cleartext_discarding_multiplication.rs:5-8. -/
def lweCiphertextCleartextDiscardingMultiplication (output input1 : M.Lwe) : Doc :=
  [(input1.lweDim = output.lweDim, .lweDimensionMismatch)]

/-- spec/lwe_ciphertext_creation.rs:5-8. -/
def lweCiphertextCreation (containerLength : Nat) : Doc :=
  [(0 < containerLength, .emptyContainer)]

/-- spec/lwe_ciphertext_discarding_addition.rs:5-8. -/
def lweCiphertextDiscardingAddition (output input1 input2 : M.Lwe) : Doc :=
  [(input1.lweDim = input2.lweDim ∧ input1.lweDim = output.lweDim, .lweDimensionMismatch)]

/-- spec/lwe_ciphertext_discarding_bootstrap.rs:8-15. -/
def lweCiphertextDiscardingBootstrap (output input : M.Lwe) (acc : M.Glwe) (bsk : M.Bsk) : Doc :=
  [(input.lweDim = bsk.inDim, .inputLweDimensionMismatch),
   (output.lweDim = bsk.glweDim * bsk.polySize, .outputLweDimensionMismatch),
   (acc.polySize = bsk.polySize, .accumulatorPolynomialSizeMismatch),
   (acc.glweDim = bsk.glweDim, .accumulatorGlweDimensionMismatch)]

/-- spec/lwe_ciphertext_discarding_conversion.rs:5-8. -/
def lweCiphertextDiscardingConversion (output input : M.Lwe) : Doc :=
  [(input.lweDim = output.lweDim, .lweDimensionMismatch)]

/-- spec/lwe_ciphertext_discarding_decryption.rs:6-9. -/
def lweCiphertextDiscardingDecryption (key input : M.Lwe) : Doc :=
  [(key.lweDim = input.lweDim, .lweDimensionMismatch)]

/-- spec/lwe_ciphertext_discarding_encryption.rs:7-10. -/
def lweCiphertextDiscardingEncryption (key output : M.Lwe) : Doc :=
  [(key.lweDim = output.lweDim, .lweDimensionMismatch)]

/-- spec/lwe_ciphertext_discarding_extraction.rs:6-11. -/
def lweCiphertextDiscardingExtraction (output : M.Lwe) (input : M.Glwe) (nth : Nat) : Doc :=
  [(output.lweDim = input.glweDim * input.polySize, .sizeMismatch),
   (nth < input.polySize, .monomialIndexTooLarge)]

/-- spec/lwe_ciphertext_discarding_keyswitch.rs:6-12. -/
def lweCiphertextDiscardingKeyswitch (output input : M.Lwe) (ksk : M.Ksk) : Doc :=
  [(input.lweDim = ksk.inDim, .inputLweDimensionMismatch),
   (output.lweDim = ksk.outDim, .outputLweDimensionMismatch)]

/-- spec/lwe_ciphertext_discarding_opposite.rs:5-8. -/
def lweCiphertextDiscardingOpposite (output input : M.Lwe) : Doc :=
  [(input.lweDim = output.lweDim, .lweDimensionMismatch)]

/-- spec/lwe_ciphertext_discarding_public_key_encryption.rs:5-8. -/
def lweCiphertextDiscardingPublicKeyEncryption (key output : M.Lwe) : Doc :=
  [(key.lweDim = output.lweDim, .lweDimensionMismatch)]

/-- spec/lwe_ciphertext_discarding_subtraction.rs:5-8. -/
def lweCiphertextDiscardingSubtraction (output input1 input2 : M.Lwe) : Doc :=
  [(input1.lweDim = input2.lweDim ∧ input1.lweDim = output.lweDim, .lweDimensionMismatch)]

/-- spec/lwe_ciphertext_fusing_addition.rs:5-8. -/
def lweCiphertextFusingAddition (output input : M.Lwe) : Doc :=
  [(input.lweDim = output.lweDim, .lweDimensionMismatch)]

/-- spec/lwe_ciphertext_fusing_subtraction.rs:5-8. -/
def lweCiphertextFusingSubtraction (output input : M.Lwe) : Doc :=
  [(input.lweDim = output.lweDim, .lweDimensionMismatch)]

/-- spec/lwe_ciphertext_plaintext_discarding_addition.rs:5-8. -/
def lweCiphertextPlaintextDiscardingAddition (output input1 : M.Lwe) : Doc :=
  [(input1.lweDim = output.lweDim, .lweDimensionMismatch)]

/-- spec/lwe_ciphertext_plaintext_discarding_subtraction.rs:5-8. -/
def lweCiphertextPlaintextDiscardingSubtraction (output input1 : M.Lwe) : Doc :=
  [(input1.lweDim = output.lweDim, .lweDimensionMismatch)]

/-- spec/lwe_ciphertext_vector_cleartext_vector_discarding_multiplication.rs:5-10. -/
def lweCiphertextVectorCleartextVectorDiscardingMultiplication (output input1 : M.LweVec) (input2 : M.Vec)
      : Doc :=
  [(input1.lweDim = output.lweDim, .lweDimensionMismatch),
   (input1.count = input2.count, .cleartextCountMismatch)]

/-- spec/lwe_ciphertext_vector_creation.rs:6-9. -/
def lweCiphertextVectorCreation (containerLength : Nat) : Doc :=
  [(0 < containerLength, .emptyContainer)]

/-- spec/lwe_ciphertext_vector_decryption.rs:7-10. -/
def lweCiphertextVectorDecryption (key : M.Lwe) (input : M.LweVec) : Doc :=
  [(input.lweDim = key.lweDim, .lweDimensionMismatch)]

/-- spec/lwe_ciphertext_vector_discarding_addition.rs:5-9. -/
def lweCiphertextVectorDiscardingAddition (output input1 input2 : M.LweVec) : Doc :=
  [(input1.lweDim = output.lweDim ∧ input2.lweDim = output.lweDim, .lweDimensionMismatch),
   (input1.count = output.count ∧ input2.count = output.count, .ciphertextCountMismatch)]

/-- spec/lwe_ciphertext_vector_discarding_affine_transformation.rs:7-11. -/
def lweCiphertextVectorDiscardingAffineTransformation (output : M.Lwe) (inputs : M.LweVec) (weights : M.Vec)
      : Doc :=
  [(inputs.lweDim = output.lweDim, .lweDimensionMismatch),
   (weights.count = inputs.count, .cleartextCountMismatch)]

/-- spec/lwe_ciphertext_vector_discarding_bootstrap.rs:8-16. -/
def lweCiphertextVectorDiscardingBootstrap (output input : M.LweVec) (acc : M.GlweVec) (bsk : M.Bsk) : Doc :=
  [(input.lweDim = bsk.inDim, .inputLweDimensionMismatch),
   (output.lweDim = bsk.glweDim * bsk.polySize, .outputLweDimensionMismatch),
   (acc.glweDim = bsk.glweDim, .accumulatorGlweDimensionMismatch),
   (acc.polySize = bsk.polySize, .accumulatorPolynomialSizeMismatch),
   (acc.count = input.count, .accumulatorCountMismatch),
   (input.count = output.count, .ciphertextCountMismatch)]

/-- spec/lwe_ciphertext_vector_discarding_circuit_bootstrap_boolean.rs:9-23. -/
def lweCiphertextVectorDiscardingCircuitBootstrapBoolean (inputLweCt : M.Lwe) (outputGgswCt : M.Ggsw)
      (bootstrapKey : M.Bsk) (cbsPfpksk : M.Pfpksk) : Doc :=
  [(cbsPfpksk.inDim = bootstrapKey.glweDim * bootstrapKey.polySize, .keysDimensionMismatched),
   (outputGgswCt.polySize = cbsPfpksk.outPolySize, .mismatchedPolynomialSize),
   (outputGgswCt.glweDim = cbsPfpksk.outGlweDim, .mismatchedGlweDimension),
   (cbsPfpksk.keyCount = outputGgswCt.level * (outputGgswCt.glweDim + 1), .mismatchedPFPKSKCount),
   (inputLweCt.lweDim = bootstrapKey.inDim, .mismatchedInputLweDimension)]

/-- spec/lwe_ciphertext_vector_discarding_conversion.rs:5-9. -/
def lweCiphertextVectorDiscardingConversion (output input : M.LweVec) : Doc :=
  [(input.lweDim = output.lweDim, .lweDimensionMismatch),
   (input.count = output.count, .ciphertextCountMismatch)]

/-- spec/lwe_ciphertext_vector_discarding_decryption.rs:7-12. -/
def lweCiphertextVectorDiscardingDecryption (key : M.Lwe) (output : M.Vec) (input : M.LweVec) : Doc :=
  [(key.lweDim = input.lweDim, .lweDimensionMismatch),
   (output.count = input.count, .plaintextCountMismatch)]

/-- spec/lwe_ciphertext_vector_discarding_encryption.rs:8-13. -/
def lweCiphertextVectorDiscardingEncryption (key : M.Lwe) (output : M.LweVec) (input : M.Vec) : Doc :=
  [(key.lweDim = output.lweDim, .lweDimensionMismatch),
   (input.count = output.count, .plaintextCountMismatch)]

/-- spec/lwe_ciphertext_vector_discarding_keyswitch.rs:6-13. -/
def lweCiphertextVectorDiscardingKeyswitch (output input : M.LweVec) (ksk : M.Ksk) : Doc :=
  [(input.lweDim = ksk.inDim, .inputLweDimensionMismatch),
   (output.lweDim = ksk.outDim, .outputLweDimensionMismatch),
   (input.count = output.count, .ciphertextCountMismatch)]

/-- spec/lwe_ciphertext_vector_discarding_opposite.rs:5-9. -/
def lweCiphertextVectorDiscardingOpposite (output input : M.LweVec) : Doc :=
  [(input.lweDim = output.lweDim, .lweDimensionMismatch),
   (input.count = output.count, .ciphertextCountMismatch)]

/-- spec/lwe_ciphertext_vector_discarding_subtraction.rs:5-9. -/
def lweCiphertextVectorDiscardingSubtraction (output input1 input2 : M.LweVec) : Doc :=
  [(input1.lweDim = output.lweDim ∧ input2.lweDim = output.lweDim, .lweDimensionMismatch),
   (input1.count = output.count ∧ input2.count = output.count, .ciphertextCountMismatch)]

/-- spec/lwe_ciphertext_vector_fusing_addition.rs:5-9. -/
def lweCiphertextVectorFusingAddition (output input : M.LweVec) : Doc :=
  [(input.lweDim = output.lweDim, .lweDimensionMismatch),
   (input.count = output.count, .ciphertextCountMismatch)]

/-- spec/lwe_ciphertext_vector_fusing_subtraction.rs:5-9. -/
def lweCiphertextVectorFusingSubtraction (output input : M.LweVec) : Doc :=
  [(input.lweDim = output.lweDim, .lweDimensionMismatch),
   (input.count = output.count, .ciphertextCountMismatch)]

/-- spec/lwe_ciphertext_vector_glwe_ciphertext_discarding_packing_keyswitch.rs:7-17. -/
def lweCiphertextVectorGlweCiphertextDiscardingPackingKeyswitch (output : M.Glwe) (input : M.LweVec) (ksk
      : M.Pfpksk) : Doc :=
  [(input.lweDim = ksk.inDim, .inputLweDimensionMismatch),
   (output.glweDim = ksk.outGlweDim, .outputGlweDimensionMismatch),
   (output.polySize = ksk.outPolySize, .outputPolynomialSizeMismatch),
   (input.count ≤ output.polySize, .ciphertextCountMismatch)]

/-- spec/lwe_ciphertext_vector_glwe_ciphertext_discarding_private_functional_packing_keyswitch.rs:7-18. -/
def lweCiphertextVectorGlweCiphertextDiscardingPrivateFunctionalPackingKeyswitch (output : M.Glwe) (input
      : M.LweVec) (ksk : M.Pfpksk) : Doc :=
  [(input.lweDim = ksk.inDim, .inputLweDimensionMismatch),
   (output.glweDim = ksk.outGlweDim, .outputGlweDimensionMismatch),
   (output.polySize = ksk.outPolySize, .outputPolynomialSizeMismatch),
   (input.count ≤ output.polySize, .ciphertextCountMismatch)]

/-- spec/lwe_ciphertext_vector_plaintext_vector_discarding_addition.rs:5-12. -/
def lweCiphertextVectorPlaintextVectorDiscardingAddition (output input1 : M.LweVec) (input2 : M.Vec) : Doc :=
  [(input1.lweDim = output.lweDim, .lweDimensionMismatch),
   (input1.count = output.count, .ciphertextCountMismatch),
   (input1.count = input2.count, .plaintextCountMismatch)]

/-- spec/lwe_ciphertext_vector_zero_encryption.rs:6-9. -/
def lweCiphertextVectorZeroEncryption (count : Nat) : Doc :=
  [(0 < count, .nullCiphertextCount)]

/-- spec/lwe_keyswitch_key_discarding_conversion.rs:5-11. -/
def lweKeyswitchKeyDiscardingConversion (output input : M.Ksk) : Doc :=
  [(input.inDim = output.inDim, .inputLweDimensionMismatch),
   (input.outDim = output.outDim, .outputLweDimensionMismatch),
   (input.baseLog = output.baseLog, .decompositionBaseLogMismatch),
   (input.level = output.level, .decompositionLevelCountMismatch)]

/-- spec/lwe_public_key_generation.rs:5-9. -/
def lwePublicKeyGeneration (lwePublicKeyZeroEncryptionCount : Nat) : Doc :=
  [(0 < lwePublicKeyZeroEncryptionCount, .nullPublicKeyZeroEncryptionCount)]

/-- spec/lwe_secret_key_discarding_conversion.rs:5-8. -/
def lweSecretKeyDiscardingConversion (output input : M.Lwe) : Doc :=
  [(input.lweDim = output.lweDim, .lweDimensionMismatch)]

/-- spec/lwe_secret_key_generation.rs:5-8. -/
def lweSecretKeyGeneration (lweDimension : Nat) : Doc :=
  [(0 < lweDimension, .nullLweDimension)]

/-- spec/plaintext_vector_creation.rs:5-8. -/
def plaintextVectorCreation (values : M.Vec) : Doc :=
  [(0 < values.count, .emptyInput)]

/-- spec/plaintext_vector_decoding.rs:7-10. -/
def plaintextVectorDecoding (encoder input : M.Vec) : Doc :=
  [(encoder.count = input.count, .encoderCountMismatch)]

/-- spec/plaintext_vector_discarding_conversion.rs:5-8. -/
def plaintextVectorDiscardingConversion (output input : M.Vec) : Doc :=
  [(input.count = output.count, .plaintextCountMismatch)]

/-- spec/plaintext_vector_discarding_retrieval.rs:5-8. -/
def plaintextVectorDiscardingRetrieval (output input : M.Vec) : Doc :=
  [(input.count = output.count, .plaintextCountMismatch)]

/-- The decomposition strings of spec/lwe_bootstrap_key_generation.rs:8-14 and of the other key generation
engines. -/
def keyGeneration (baseLog level modLog : Nat) : Doc :=
  [(0 < baseLog, .nullDecompositionBaseLog),
   (0 < level, .nullDecompositionLevelCount),
   (baseLog * level ≤ modLog, .decompositionTooLarge)]

/-- spec/lwe_private_functional_packing_keyswitch_key_generation.rs:10-19. -/
def lwePrivateFunctionalPackingKeyswitchKeyGeneration (level baseLog modLog keyPolySize polySize : Nat) :
    Doc :=
  keyGeneration baseLog level modLog ++ [(keyPolySize = polySize, .differentPolynomialSizes)]

/-- spec/lwe_keyswitch_key_creation.rs:6-15. -/
def lweKeyswitchKeyCreation (len outDim baseLog level modLog : Nat) : Doc :=
  keyGeneration baseLog level modLog ++ [(level * (outDim + 1) ∣ len, .invalidContainerSize)]

/-- spec/lwe_bootstrap_key_creation.rs:6-15. -/
def lweBootstrapKeyCreation (len glweSize polySize baseLog level modLog : Nat) : Doc :=
  keyGeneration baseLog level modLog ++
    [(level * glweSize * glweSize * polySize ∣ len, .invalidContainerSize)]

/-- spec/glwe_ciphertext_creation.rs:6-11. -/
def glweCiphertextCreation (len polySize : Nat) : Doc :=
  [(0 < len, .emptyContainer), (polySize ∣ len, .invalidContainerSize)]

/-- spec/glwe_ciphertext_vector_creation.rs:6-11. The string says `a multiple of polynomial_size`, which cannot
be meant for a vector of ciphertexts of several polynomials: read here as a multiple of the size of one
ciphertext. -/
def glweCiphertextVectorCreation (len polySize glweSize : Nat) : Doc :=
  [(0 < len, .emptyContainer), (polySize * glweSize ∣ len, .invalidContainerSize)]

/-- spec/glwe_ciphertext_vector_encryption.rs:8-12, glwe_seeded_ciphertext_vector_encryption.rs:8-12. -/
def glweCiphertextVectorEncryption (key : M.Glwe) (input : M.Vec) : Doc :=
  [(key.polySize ∣ input.count, .plaintextCountMismatch)]

/-- spec/glwe_ciphertext_vector_trivial_encryption.rs:7-11. -/
def glweCiphertextVectorTrivialEncryption (count : Nat) (input : M.Vec) : Doc :=
  [(count ∣ input.count, .plaintextCountMismatch)]

/-- spec/lwe_to_glwe_secret_key_transformation.rs:6-13. -/
def lweToGlweSecretKeyTransformation (key : M.Lwe) (polySize : Nat) : Doc :=
  [(polySize ∣ key.lweDim, .incompatibleLweDimension), (0 < polySize, .nullPolynomialSize),
   (1 < polySize, .sizeOnePolynomial)]

/-- spec/lwe_ciphertext_discarding_bit_extraction.rs:7-22. -/
def lweCiphertextDiscardingBitExtraction (output : M.LweVec) (input : M.Lwe) (bsk : M.Bsk) (ksk : M.Ksk)
    (bits modLog deltaLog : Nat) : Doc :=
  [(input.lweDim = bsk.glweDim * bsk.polySize, .inputLweDimensionMismatch),
   (input.lweDim = ksk.inDim, .inputKeyswitchKeyLweDimensionMismatch),
   (output.lweDim = ksk.outDim, .outputLweDimensionMismatch),
   (output.count = bits, .extractedBitsCountMismatch),
   (ksk.outDim = bsk.inDim, .keyDimensionMismatch),
   (deltaLog + bits ≤ modLog, .notEnoughBitsToExtract)]

/-- spec/lwe_ciphertext_vector_discarding_circuit_bootstrap_boolean_vertical_packing.rs:9-34. -/
def verticalPacking (input output : M.LweVec) (bsk : M.Bsk) (luts : M.Vec) (level baseLog : Nat)
    (pfpksk : M.Pfpksk) (modLog : Nat) : Doc :=
  [(0 < baseLog, .nullDecompositionBaseLog),
   (0 < level, .nullDecompositionLevelCount),
   (baseLog * level ≤ modLog, .decompositionTooLarge),
   (bsk.glweDim * bsk.polySize = pfpksk.inDim, .keysLweDimensionMismatch),
   (input.lweDim = bsk.inDim, .inputLweDimensionMismatch),
   (output.lweDim = pfpksk.outGlweDim * pfpksk.outPolySize, .outputLweDimensionMismatch),
   (pfpksk.outPolySize * output.count ∣ luts.count, .malformedLookUpTables),
   (luts.count = 2 ^ input.count * output.count, .invalidSmallLookUpTableSize)]

/-- fft_engine/mod.rs:18-21: powers of two, at least 32. -/
def fft (polySize : Nat) : Doc :=
  [((∃ k, polySize = 2 ^ k) ∧ 32 ≤ polySize, .unsupportedPolynomialSize)]

end Doc

end Verif.Engine
