import Verif.Engine.ChecksSpec
import Verif.Csprng.Invariant
import Mathlib.Tactic.Positivity
import Mathlib.Tactic.Tauto
/-
C40: the generic checks report exactly the documented violations. One theorem per engine, for every tuple of
dimensions.
-/
namespace Verif.Engine
open Verif.Csprng (Build)

theorem checks_nil : checks [] = .ok () := rfl

theorem checks_bad (c : Bool) (e : EErr) (rs : List (Res EErr Unit)) :
    checks (bad c e :: rs) = if c = true then .err e else checks rs := by
  cases c <;> rfl

theorem reports_nil : Reports (.ok ()) [] := ⟨fun _ => rfl, fun ⟨_, h, _⟩ => absurd h (by simp)⟩

/-- One statement, one documented condition. -/
theorem Reports.cons {c : Bool} {e : EErr} {p : Prop} {rs : List (Res EErr Unit)} {doc : Doc}
    (h : c = true ↔ ¬ p) (t : p → Reports (checks rs) doc) :
    Reports (checks (bad c e :: rs)) ((p, e) :: doc) := by
  rw [checks_bad]
  constructor
  · intro hd
    have hp : p := hd (p, e) (by simp)
    rw [if_neg (by rw [h]; exact not_not_intro hp)]
    exact (t hp).1 fun d hm => hd d (by simp [hm])
  · rintro ⟨d, hm, hn⟩
    by_cases hp : p
    · rw [if_neg (by rw [h]; exact not_not_intro hp)]
      have hm' : d ∈ doc := by
        rcases List.mem_cons.1 hm with rfl | hm
        · exact absurd hp hn
        · exact hm
      obtain ⟨d', h1, h2, h3⟩ := (t hp).2 ⟨d, hm', hn⟩
      exact ⟨d', by simp [h1], h2, h3⟩
    · exact ⟨(p, e), by simp, hp, by rw [if_pos (h.2 hp)]⟩

/-- The order of the documentation does not matter. -/
theorem Reports.of_mem {r : Res EErr Unit} {doc doc' : Doc} (t : Reports r doc)
    (h : ∀ d, d ∈ doc ↔ d ∈ doc') : Reports r doc' :=
  ⟨fun hd => t.1 fun d hm => hd d ((h d).1 hm), fun ⟨d, hm, hn⟩ => by
    obtain ⟨d', h1, h2, h3⟩ := t.2 ⟨d, (h d).2 hm, hn⟩
    exact ⟨d', (h d').1 h1, h2, h3⟩⟩

/-- One statement after the other, when the documentation follows the code. -/
macro "reports" : tactic => `(tactic|
  (repeat (refine Reports.cons ?_ ?_
           · simp only [bne_iff_ne, ne_eq, beq_iff_eq, Bool.or_eq_true, decide_eq_true_eq, M.Bsk.outDim] <;>
             first | omega | simp only [Nat.mul_comm]
           intro _)
   exact reports_nil))

theorem C40_cleartextVectorCreation (values : M.Vec) :
    Reports (Checks.cleartextVectorCreation values) (Doc.cleartextVectorCreation values) := by
  unfold Checks.cleartextVectorCreation Doc.cleartextVectorCreation
  reports

theorem C40_cleartextVectorDiscardingConversion (output input : M.Vec) :
    Reports (Checks.cleartextVectorDiscardingConversion output input)
      (Doc.cleartextVectorDiscardingConversion output input) := by
  unfold Checks.cleartextVectorDiscardingConversion Doc.cleartextVectorDiscardingConversion
  reports

theorem C40_cleartextVectorDiscardingRetrieval (output input : M.Vec) :
    Reports (Checks.cleartextVectorDiscardingRetrieval output input)
      (Doc.cleartextVectorDiscardingRetrieval output input) := by
  unfold Checks.cleartextVectorDiscardingRetrieval Doc.cleartextVectorDiscardingRetrieval
  reports

theorem C40_cleartextVectorEncoding (encoderVector cleartextVector : M.Vec) :
    Reports (Checks.cleartextVectorEncoding encoderVector cleartextVector)
      (Doc.cleartextVectorEncoding encoderVector cleartextVector) := by
  unfold Checks.cleartextVectorEncoding Doc.cleartextVectorEncoding
  reports

theorem C40_ggswCiphertextDiscardingConversion (output input : M.Ggsw) :
    Reports (Checks.ggswCiphertextDiscardingConversion output input)
      (Doc.ggswCiphertextDiscardingConversion output input) := by
  unfold Checks.ggswCiphertextDiscardingConversion Doc.ggswCiphertextDiscardingConversion
  reports

theorem C40_ggswCiphertextScalarDiscardingEncryption (key : M.Glwe) (output : M.Ggsw) :
    Reports (Checks.ggswCiphertextScalarDiscardingEncryption key output)
      (Doc.ggswCiphertextScalarDiscardingEncryption key output) := by
  unfold Checks.ggswCiphertextScalarDiscardingEncryption Doc.ggswCiphertextScalarDiscardingEncryption
  refine Reports.of_mem (doc := [(key.polySize = output.polySize, .polynomialSizeMismatch),
    (key.glweDim = output.glweDim, .glweDimensionMismatch)]) ?_
      (by intro d; simp only [List.mem_cons, List.not_mem_nil]; tauto)
  reports

theorem C40_glweCiphertextDecryption (key input : M.Glwe) :
    Reports (Checks.glweCiphertextDecryption key input) (Doc.glweCiphertextDecryption key input) := by
  unfold Checks.glweCiphertextDecryption Doc.glweCiphertextDecryption
  reports

theorem C40_glweCiphertextDiscardingConversion (output input : M.Glwe) :
    Reports (Checks.glweCiphertextDiscardingConversion output input)
      (Doc.glweCiphertextDiscardingConversion output input) := by
  unfold Checks.glweCiphertextDiscardingConversion Doc.glweCiphertextDiscardingConversion
  reports

theorem C40_glweCiphertextDiscardingDecryption (key : M.Glwe) (output : M.Vec) (input : M.Glwe) :
    Reports (Checks.glweCiphertextDiscardingDecryption key output input)
      (Doc.glweCiphertextDiscardingDecryption key output input) := by
  unfold Checks.glweCiphertextDiscardingDecryption Doc.glweCiphertextDiscardingDecryption
  refine Reports.of_mem (doc := [(key.polySize = input.polySize, .polynomialSizeMismatch),
    (key.glweDim = input.glweDim, .glweDimensionMismatch),
    (output.count = input.polySize, .plaintextCountMismatch)]) ?_
      (by intro d; simp only [List.mem_cons, List.not_mem_nil]; tauto)
  reports

theorem C40_glweCiphertextDiscardingEncryption (key output : M.Glwe) (input : M.Vec) :
    Reports (Checks.glweCiphertextDiscardingEncryption key output input)
      (Doc.glweCiphertextDiscardingEncryption key output input) := by
  unfold Checks.glweCiphertextDiscardingEncryption Doc.glweCiphertextDiscardingEncryption
  refine Reports.of_mem (doc := [(key.polySize = output.polySize, .polynomialSizeMismatch),
    (key.glweDim = output.glweDim, .glweDimensionMismatch),
    (input.count = output.polySize, .plaintextCountMismatch)]) ?_
      (by intro d; simp only [List.mem_cons, List.not_mem_nil]; tauto)
  reports

theorem C40_glweCiphertextDiscardingTrivialEncryption (output : M.Glwe) (input : M.Vec) :
    Reports (Checks.glweCiphertextDiscardingTrivialEncryption output input)
      (Doc.glweCiphertextDiscardingTrivialEncryption output input) := by
  unfold Checks.glweCiphertextDiscardingTrivialEncryption Doc.glweCiphertextDiscardingTrivialEncryption
  reports

theorem C40_glweCiphertextEncryption (key : M.Glwe) (input : M.Vec) :
    Reports (Checks.glweCiphertextEncryption key input) (Doc.glweCiphertextEncryption key input) := by
  unfold Checks.glweCiphertextEncryption Doc.glweCiphertextEncryption
  reports

theorem C40_glweCiphertextGgswCiphertextExternalProduct (glweInput : M.Glwe) (ggswInput : M.Ggsw) :
    Reports (Checks.glweCiphertextGgswCiphertextExternalProduct glweInput ggswInput)
      (Doc.glweCiphertextGgswCiphertextExternalProduct glweInput ggswInput) := by
  unfold Checks.glweCiphertextGgswCiphertextExternalProduct Doc.glweCiphertextGgswCiphertextExternalProduct
  reports

theorem C40_glweCiphertextVectorDecryption (key : M.Glwe) (input : M.GlweVec) :
    Reports (Checks.glweCiphertextVectorDecryption key input) (Doc.glweCiphertextVectorDecryption key input)
      := by
  unfold Checks.glweCiphertextVectorDecryption Doc.glweCiphertextVectorDecryption
  reports

theorem C40_glweCiphertextVectorDiscardingConversion (output input : M.GlweVec) :
    Reports (Checks.glweCiphertextVectorDiscardingConversion output input)
      (Doc.glweCiphertextVectorDiscardingConversion output input) := by
  unfold Checks.glweCiphertextVectorDiscardingConversion Doc.glweCiphertextVectorDiscardingConversion
  reports

theorem C40_glweCiphertextVectorDiscardingDecryption (key : M.Glwe) (output : M.Vec) (input : M.GlweVec) :
    Reports (Checks.glweCiphertextVectorDiscardingDecryption key output input)
      (Doc.glweCiphertextVectorDiscardingDecryption key output input) := by
  unfold Checks.glweCiphertextVectorDiscardingDecryption Doc.glweCiphertextVectorDiscardingDecryption
  reports

theorem C40_glweCiphertextVectorDiscardingEncryption (key : M.Glwe) (output : M.GlweVec) (input : M.Vec) :
    Reports (Checks.glweCiphertextVectorDiscardingEncryption key output input)
      (Doc.glweCiphertextVectorDiscardingEncryption key output input) := by
  unfold Checks.glweCiphertextVectorDiscardingEncryption Doc.glweCiphertextVectorDiscardingEncryption
  reports

theorem C40_glweCiphertextVectorZeroEncryption (count : Nat) :
    Reports (Checks.glweCiphertextVectorZeroEncryption count) (Doc.glweCiphertextVectorZeroEncryption count)
      := by
  unfold Checks.glweCiphertextVectorZeroEncryption Doc.glweCiphertextVectorZeroEncryption
  reports

theorem C40_glweCiphertextsGgswCiphertextFusingCmux (glweOutput glweInput : M.Glwe) (ggsw : M.Ggsw) :
    Reports (Checks.glweCiphertextsGgswCiphertextFusingCmux glweOutput glweInput ggsw)
      (Doc.glweCiphertextsGgswCiphertextFusingCmux glweOutput glweInput ggsw) := by
  unfold Checks.glweCiphertextsGgswCiphertextFusingCmux Doc.glweCiphertextsGgswCiphertextFusingCmux
  reports

theorem C40_glweSecretKeyDiscardingConversion (output input : M.Glwe) :
    Reports (Checks.glweSecretKeyDiscardingConversion output input)
      (Doc.glweSecretKeyDiscardingConversion output input) := by
  unfold Checks.glweSecretKeyDiscardingConversion Doc.glweSecretKeyDiscardingConversion
  reports

theorem C40_glweSecretKeyGeneration (glweDimension polynomialSize : Nat) :
    Reports (Checks.glweSecretKeyGeneration glweDimension polynomialSize)
      (Doc.glweSecretKeyGeneration glweDimension polynomialSize) := by
  unfold Checks.glweSecretKeyGeneration Doc.glweSecretKeyGeneration
  reports

theorem C40_glweSeededCiphertextEncryption (key : M.Glwe) (input : M.Vec) :
    Reports (Checks.glweSeededCiphertextEncryption key input) (Doc.glweSeededCiphertextEncryption key input)
      := by
  unfold Checks.glweSeededCiphertextEncryption Doc.glweSeededCiphertextEncryption
  reports

theorem C40_lweBootstrapKeyDiscardingConversion (output input : M.Bsk) :
    Reports (Checks.lweBootstrapKeyDiscardingConversion output input)
      (Doc.lweBootstrapKeyDiscardingConversion output input) := by
  unfold Checks.lweBootstrapKeyDiscardingConversion Doc.lweBootstrapKeyDiscardingConversion
  reports

theorem C40_lweCiphertextCleartextDiscardingMultiplication (output input1 : M.Lwe) :
    Reports (Checks.lweCiphertextCleartextDiscardingMultiplication output input1)
      (Doc.lweCiphertextCleartextDiscardingMultiplication output input1) := by
  unfold Checks.lweCiphertextCleartextDiscardingMultiplication Doc.lweCiphertextCleartextDiscardingMultiplication
  reports

theorem C40_lweCiphertextCreation (containerLength : Nat) :
    Reports (Checks.lweCiphertextCreation containerLength) (Doc.lweCiphertextCreation containerLength) := by
  unfold Checks.lweCiphertextCreation Doc.lweCiphertextCreation
  reports

theorem C40_lweCiphertextDiscardingAddition (output input1 input2 : M.Lwe) :
    Reports (Checks.lweCiphertextDiscardingAddition output input1 input2)
      (Doc.lweCiphertextDiscardingAddition output input1 input2) := by
  unfold Checks.lweCiphertextDiscardingAddition Doc.lweCiphertextDiscardingAddition
  reports

theorem C40_lweCiphertextDiscardingBootstrap (output input : M.Lwe) (acc : M.Glwe) (bsk : M.Bsk) :
    Reports (Checks.lweCiphertextDiscardingBootstrap output input acc bsk)
      (Doc.lweCiphertextDiscardingBootstrap output input acc bsk) := by
  unfold Checks.lweCiphertextDiscardingBootstrap Doc.lweCiphertextDiscardingBootstrap
  refine Reports.of_mem (doc := [(input.lweDim = bsk.inDim, .inputLweDimensionMismatch),
    (acc.polySize = bsk.polySize, .accumulatorPolynomialSizeMismatch),
    (acc.glweDim = bsk.glweDim, .accumulatorGlweDimensionMismatch),
    (output.lweDim = bsk.glweDim * bsk.polySize, .outputLweDimensionMismatch)]) ?_
      (by intro d; simp only [List.mem_cons, List.not_mem_nil]; tauto)
  reports

theorem C40_lweCiphertextDiscardingConversion (output input : M.Lwe) :
    Reports (Checks.lweCiphertextDiscardingConversion output input)
      (Doc.lweCiphertextDiscardingConversion output input) := by
  unfold Checks.lweCiphertextDiscardingConversion Doc.lweCiphertextDiscardingConversion
  reports

theorem C40_lweCiphertextDiscardingDecryption (key input : M.Lwe) :
    Reports (Checks.lweCiphertextDiscardingDecryption key input)
      (Doc.lweCiphertextDiscardingDecryption key input) := by
  unfold Checks.lweCiphertextDiscardingDecryption Doc.lweCiphertextDiscardingDecryption
  reports

theorem C40_lweCiphertextDiscardingEncryption (key output : M.Lwe) :
    Reports (Checks.lweCiphertextDiscardingEncryption key output)
      (Doc.lweCiphertextDiscardingEncryption key output) := by
  unfold Checks.lweCiphertextDiscardingEncryption Doc.lweCiphertextDiscardingEncryption
  reports

theorem C40_lweCiphertextDiscardingExtraction (output : M.Lwe) (input : M.Glwe) (nth : Nat) :
    Reports (Checks.lweCiphertextDiscardingExtraction output input nth)
      (Doc.lweCiphertextDiscardingExtraction output input nth) := by
  unfold Checks.lweCiphertextDiscardingExtraction Doc.lweCiphertextDiscardingExtraction
  reports

theorem C40_lweCiphertextDiscardingKeyswitch (output input : M.Lwe) (ksk : M.Ksk) :
    Reports (Checks.lweCiphertextDiscardingKeyswitch output input ksk)
      (Doc.lweCiphertextDiscardingKeyswitch output input ksk) := by
  unfold Checks.lweCiphertextDiscardingKeyswitch Doc.lweCiphertextDiscardingKeyswitch
  reports

theorem C40_lweCiphertextDiscardingOpposite (output input : M.Lwe) :
    Reports (Checks.lweCiphertextDiscardingOpposite output input)
      (Doc.lweCiphertextDiscardingOpposite output input) := by
  unfold Checks.lweCiphertextDiscardingOpposite Doc.lweCiphertextDiscardingOpposite
  reports

theorem C40_lweCiphertextDiscardingPublicKeyEncryption (key output : M.Lwe) :
    Reports (Checks.lweCiphertextDiscardingPublicKeyEncryption key output)
      (Doc.lweCiphertextDiscardingPublicKeyEncryption key output) := by
  unfold Checks.lweCiphertextDiscardingPublicKeyEncryption Doc.lweCiphertextDiscardingPublicKeyEncryption
  reports

theorem C40_lweCiphertextDiscardingSubtraction (output input1 input2 : M.Lwe) :
    Reports (Checks.lweCiphertextDiscardingSubtraction output input1 input2)
      (Doc.lweCiphertextDiscardingSubtraction output input1 input2) := by
  unfold Checks.lweCiphertextDiscardingSubtraction Doc.lweCiphertextDiscardingSubtraction
  reports

theorem C40_lweCiphertextFusingAddition (output input : M.Lwe) :
    Reports (Checks.lweCiphertextFusingAddition output input) (Doc.lweCiphertextFusingAddition output input)
      := by
  unfold Checks.lweCiphertextFusingAddition Doc.lweCiphertextFusingAddition
  reports

theorem C40_lweCiphertextFusingSubtraction (output input : M.Lwe) :
    Reports (Checks.lweCiphertextFusingSubtraction output input)
      (Doc.lweCiphertextFusingSubtraction output input) := by
  unfold Checks.lweCiphertextFusingSubtraction Doc.lweCiphertextFusingSubtraction
  reports

theorem C40_lweCiphertextPlaintextDiscardingAddition (output input1 : M.Lwe) :
    Reports (Checks.lweCiphertextPlaintextDiscardingAddition output input1)
      (Doc.lweCiphertextPlaintextDiscardingAddition output input1) := by
  unfold Checks.lweCiphertextPlaintextDiscardingAddition Doc.lweCiphertextPlaintextDiscardingAddition
  reports

theorem C40_lweCiphertextPlaintextDiscardingSubtraction (output input1 : M.Lwe) :
    Reports (Checks.lweCiphertextPlaintextDiscardingSubtraction output input1)
      (Doc.lweCiphertextPlaintextDiscardingSubtraction output input1) := by
  unfold Checks.lweCiphertextPlaintextDiscardingSubtraction Doc.lweCiphertextPlaintextDiscardingSubtraction
  reports

theorem C40_lweCiphertextVectorCleartextVectorDiscardingMultiplication (output input1 : M.LweVec) (input2
      : M.Vec) :
    Reports (Checks.lweCiphertextVectorCleartextVectorDiscardingMultiplication output input1 input2)
      (Doc.lweCiphertextVectorCleartextVectorDiscardingMultiplication output input1 input2) := by
  unfold Checks.lweCiphertextVectorCleartextVectorDiscardingMultiplication Doc.lweCiphertextVectorCleartextVectorDiscardingMultiplication
  reports

theorem C40_lweCiphertextVectorCreation (containerLength : Nat) :
    Reports (Checks.lweCiphertextVectorCreation containerLength)
      (Doc.lweCiphertextVectorCreation containerLength) := by
  unfold Checks.lweCiphertextVectorCreation Doc.lweCiphertextVectorCreation
  reports

theorem C40_lweCiphertextVectorDecryption (key : M.Lwe) (input : M.LweVec) :
    Reports (Checks.lweCiphertextVectorDecryption key input) (Doc.lweCiphertextVectorDecryption key input)
      := by
  unfold Checks.lweCiphertextVectorDecryption Doc.lweCiphertextVectorDecryption
  reports

theorem C40_lweCiphertextVectorDiscardingAddition (output input1 input2 : M.LweVec) :
    Reports (Checks.lweCiphertextVectorDiscardingAddition output input1 input2)
      (Doc.lweCiphertextVectorDiscardingAddition output input1 input2) := by
  unfold Checks.lweCiphertextVectorDiscardingAddition Doc.lweCiphertextVectorDiscardingAddition
  reports

theorem C40_lweCiphertextVectorDiscardingAffineTransformation (output : M.Lwe) (inputs : M.LweVec) (weights
      : M.Vec) :
    Reports (Checks.lweCiphertextVectorDiscardingAffineTransformation output inputs weights)
      (Doc.lweCiphertextVectorDiscardingAffineTransformation output inputs weights) := by
  unfold Checks.lweCiphertextVectorDiscardingAffineTransformation Doc.lweCiphertextVectorDiscardingAffineTransformation
  reports

theorem C40_lweCiphertextVectorDiscardingBootstrap (output input : M.LweVec) (acc : M.GlweVec) (bsk : M.Bsk) :
    Reports (Checks.lweCiphertextVectorDiscardingBootstrap output input acc bsk)
      (Doc.lweCiphertextVectorDiscardingBootstrap output input acc bsk) := by
  unfold Checks.lweCiphertextVectorDiscardingBootstrap Doc.lweCiphertextVectorDiscardingBootstrap
  reports

theorem C40_lweCiphertextVectorDiscardingCircuitBootstrapBoolean (inputLweCt : M.Lwe) (outputGgswCt
      : M.Ggsw) (bootstrapKey : M.Bsk) (cbsPfpksk : M.Pfpksk) :
    Reports (Checks.lweCiphertextVectorDiscardingCircuitBootstrapBoolean inputLweCt outputGgswCt bootstrapKey cbsPfpksk) (Doc.lweCiphertextVectorDiscardingCircuitBootstrapBoolean inputLweCt outputGgswCt bootstrapKey cbsPfpksk) := by
  unfold Checks.lweCiphertextVectorDiscardingCircuitBootstrapBoolean Doc.lweCiphertextVectorDiscardingCircuitBootstrapBoolean
  reports

theorem C40_lweCiphertextVectorDiscardingConversion (output input : M.LweVec) :
    Reports (Checks.lweCiphertextVectorDiscardingConversion output input)
      (Doc.lweCiphertextVectorDiscardingConversion output input) := by
  unfold Checks.lweCiphertextVectorDiscardingConversion Doc.lweCiphertextVectorDiscardingConversion
  reports

theorem C40_lweCiphertextVectorDiscardingDecryption (key : M.Lwe) (output : M.Vec) (input : M.LweVec) :
    Reports (Checks.lweCiphertextVectorDiscardingDecryption key output input)
      (Doc.lweCiphertextVectorDiscardingDecryption key output input) := by
  unfold Checks.lweCiphertextVectorDiscardingDecryption Doc.lweCiphertextVectorDiscardingDecryption
  reports

theorem C40_lweCiphertextVectorDiscardingEncryption (key : M.Lwe) (output : M.LweVec) (input : M.Vec) :
    Reports (Checks.lweCiphertextVectorDiscardingEncryption key output input)
      (Doc.lweCiphertextVectorDiscardingEncryption key output input) := by
  unfold Checks.lweCiphertextVectorDiscardingEncryption Doc.lweCiphertextVectorDiscardingEncryption
  reports

theorem C40_lweCiphertextVectorDiscardingKeyswitch (output input : M.LweVec) (ksk : M.Ksk) :
    Reports (Checks.lweCiphertextVectorDiscardingKeyswitch output input ksk)
      (Doc.lweCiphertextVectorDiscardingKeyswitch output input ksk) := by
  unfold Checks.lweCiphertextVectorDiscardingKeyswitch Doc.lweCiphertextVectorDiscardingKeyswitch
  reports

theorem C40_lweCiphertextVectorDiscardingOpposite (output input : M.LweVec) :
    Reports (Checks.lweCiphertextVectorDiscardingOpposite output input)
      (Doc.lweCiphertextVectorDiscardingOpposite output input) := by
  unfold Checks.lweCiphertextVectorDiscardingOpposite Doc.lweCiphertextVectorDiscardingOpposite
  reports

theorem C40_lweCiphertextVectorDiscardingSubtraction (output input1 input2 : M.LweVec) :
    Reports (Checks.lweCiphertextVectorDiscardingSubtraction output input1 input2)
      (Doc.lweCiphertextVectorDiscardingSubtraction output input1 input2) := by
  unfold Checks.lweCiphertextVectorDiscardingSubtraction Doc.lweCiphertextVectorDiscardingSubtraction
  reports

theorem C40_lweCiphertextVectorFusingAddition (output input : M.LweVec) :
    Reports (Checks.lweCiphertextVectorFusingAddition output input)
      (Doc.lweCiphertextVectorFusingAddition output input) := by
  unfold Checks.lweCiphertextVectorFusingAddition Doc.lweCiphertextVectorFusingAddition
  reports

theorem C40_lweCiphertextVectorFusingSubtraction (output input : M.LweVec) :
    Reports (Checks.lweCiphertextVectorFusingSubtraction output input)
      (Doc.lweCiphertextVectorFusingSubtraction output input) := by
  unfold Checks.lweCiphertextVectorFusingSubtraction Doc.lweCiphertextVectorFusingSubtraction
  reports

theorem C40_lweCiphertextVectorGlweCiphertextDiscardingPackingKeyswitch (output : M.Glwe) (input : M.LweVec)
      (ksk : M.Pfpksk) :
    Reports (Checks.lweCiphertextVectorGlweCiphertextDiscardingPackingKeyswitch output input ksk)
      (Doc.lweCiphertextVectorGlweCiphertextDiscardingPackingKeyswitch output input ksk) := by
  unfold Checks.lweCiphertextVectorGlweCiphertextDiscardingPackingKeyswitch Doc.lweCiphertextVectorGlweCiphertextDiscardingPackingKeyswitch
  reports

theorem C40_lweCiphertextVectorGlweCiphertextDiscardingPrivateFunctionalPackingKeyswitch (output : M.Glwe)
      (input : M.LweVec) (ksk : M.Pfpksk) :
    Reports (Checks.lweCiphertextVectorGlweCiphertextDiscardingPrivateFunctionalPackingKeyswitch output input ksk) (Doc.lweCiphertextVectorGlweCiphertextDiscardingPrivateFunctionalPackingKeyswitch output input ksk) := by
  unfold Checks.lweCiphertextVectorGlweCiphertextDiscardingPrivateFunctionalPackingKeyswitch Doc.lweCiphertextVectorGlweCiphertextDiscardingPrivateFunctionalPackingKeyswitch
  reports

theorem C40_lweCiphertextVectorPlaintextVectorDiscardingAddition (output input1 : M.LweVec) (input2 : M.Vec) :
    Reports (Checks.lweCiphertextVectorPlaintextVectorDiscardingAddition output input1 input2)
      (Doc.lweCiphertextVectorPlaintextVectorDiscardingAddition output input1 input2) := by
  unfold Checks.lweCiphertextVectorPlaintextVectorDiscardingAddition Doc.lweCiphertextVectorPlaintextVectorDiscardingAddition
  reports

theorem C40_lweCiphertextVectorZeroEncryption (count : Nat) :
    Reports (Checks.lweCiphertextVectorZeroEncryption count) (Doc.lweCiphertextVectorZeroEncryption count)
      := by
  unfold Checks.lweCiphertextVectorZeroEncryption Doc.lweCiphertextVectorZeroEncryption
  reports

theorem C40_lweKeyswitchKeyDiscardingConversion (output input : M.Ksk) :
    Reports (Checks.lweKeyswitchKeyDiscardingConversion output input)
      (Doc.lweKeyswitchKeyDiscardingConversion output input) := by
  unfold Checks.lweKeyswitchKeyDiscardingConversion Doc.lweKeyswitchKeyDiscardingConversion
  reports

theorem C40_lwePublicKeyGeneration (lwePublicKeyZeroEncryptionCount : Nat) :
    Reports (Checks.lwePublicKeyGeneration lwePublicKeyZeroEncryptionCount)
      (Doc.lwePublicKeyGeneration lwePublicKeyZeroEncryptionCount) := by
  unfold Checks.lwePublicKeyGeneration Doc.lwePublicKeyGeneration
  reports

theorem C40_lweSecretKeyDiscardingConversion (output input : M.Lwe) :
    Reports (Checks.lweSecretKeyDiscardingConversion output input)
      (Doc.lweSecretKeyDiscardingConversion output input) := by
  unfold Checks.lweSecretKeyDiscardingConversion Doc.lweSecretKeyDiscardingConversion
  reports

theorem C40_lweSecretKeyGeneration (lweDimension : Nat) :
    Reports (Checks.lweSecretKeyGeneration lweDimension) (Doc.lweSecretKeyGeneration lweDimension) := by
  unfold Checks.lweSecretKeyGeneration Doc.lweSecretKeyGeneration
  reports

theorem C40_plaintextVectorCreation (values : M.Vec) :
    Reports (Checks.plaintextVectorCreation values) (Doc.plaintextVectorCreation values) := by
  unfold Checks.plaintextVectorCreation Doc.plaintextVectorCreation
  reports

theorem C40_plaintextVectorDecoding (encoder input : M.Vec) :
    Reports (Checks.plaintextVectorDecoding encoder input) (Doc.plaintextVectorDecoding encoder input) := by
  unfold Checks.plaintextVectorDecoding Doc.plaintextVectorDecoding
  reports

theorem C40_plaintextVectorDiscardingConversion (output input : M.Vec) :
    Reports (Checks.plaintextVectorDiscardingConversion output input)
      (Doc.plaintextVectorDiscardingConversion output input) := by
  unfold Checks.plaintextVectorDiscardingConversion Doc.plaintextVectorDiscardingConversion
  reports

theorem C40_plaintextVectorDiscardingRetrieval (output input : M.Vec) :
    Reports (Checks.plaintextVectorDiscardingRetrieval output input)
      (Doc.plaintextVectorDiscardingRetrieval output input) := by
  unfold Checks.plaintextVectorDiscardingRetrieval Doc.plaintextVectorDiscardingRetrieval
  reports

/-! ### Numbers chosen by the caller -/

theorem withVal_some (v : Nat) (k : Nat → Res EErr Unit) : withVal (some v) k = k v := rfl

theorem addUsize_ok (bld : Build) {a b : Nat} (h : a + b < 2 ^ 64) : addUsize bld a b = some (a + b) := by
  simp only [addUsize, if_pos h]

theorem modUsize_ok {a b : Nat} (h : 0 < b) : modUsize a b = some (a % b) := by
  simp only [modUsize, if_neg (Nat.pos_iff_ne_zero.1 h)]

theorem divUsize_ok {a b : Nat} (h : 0 < b) : divUsize a b = some (a / b) := by
  simp only [divUsize, if_neg (Nat.pos_iff_ne_zero.1 h)]

theorem mod_bad {a b : Nat} : (a % b != 0) = true ↔ ¬ b ∣ a := by
  rw [bne_iff_ne, ne_eq, Nat.dvd_iff_mod_eq_zero]

/-- Key generation, for parameters whose product fits in `usize`. -/
theorem C40_keyGeneration_partial (bld : Build) (baseLog level modLog : Nat)
    (h : baseLog * level < 2 ^ 64) :
    Reports (Checks.keyGeneration bld baseLog level modLog) (Doc.keyGeneration baseLog level modLog) := by
  unfold Checks.keyGeneration Doc.keyGeneration Checks.decomposition
  simp only [Csprng.mulUsize_ok bld h, withVal_some]
  reports

/-- What is missing: in a release build the product wraps and decompositions far larger than the ciphertext
are accepted; in a debug build it panics. -/
theorem C40_keyGeneration_violated :
    ∃ baseLog level : Nat, baseLog < 2 ^ 64 ∧ level < 2 ^ 64 ∧ 64 < baseLog * level ∧
      Checks.keyGeneration .release baseLog level 64 = .ok () ∧
      Checks.keyGeneration .debug baseLog level 64 = .panic :=
  ⟨2 ^ 63, 2, by decide, by decide, by decide, by decide, by decide⟩

theorem C40_lwePrivateFunctionalPackingKeyswitchKeyGeneration_partial (bld : Build)
    (level baseLog modLog keyPolySize polySize : Nat) (h : baseLog * level < 2 ^ 64) :
    Reports (Checks.lwePrivateFunctionalPackingKeyswitchKeyGeneration bld level baseLog modLog keyPolySize
        polySize)
      (Doc.lwePrivateFunctionalPackingKeyswitchKeyGeneration level baseLog modLog keyPolySize polySize) := by
  unfold Checks.lwePrivateFunctionalPackingKeyswitchKeyGeneration
    Doc.lwePrivateFunctionalPackingKeyswitchKeyGeneration Checks.decomposition Doc.keyGeneration
  simp only [Csprng.mulUsize_ok bld h, withVal_some, List.cons_append, List.nil_append]
  reports

theorem C40_lweKeyswitchKeyCreation_partial (bld : Build) (len outDim baseLog level modLog : Nat)
    (h : baseLog * level < 2 ^ 64) (h1 : outDim + 1 < 2 ^ 64) (h2 : level * (outDim + 1) < 2 ^ 64) :
    Reports (Checks.lweKeyswitchKeyCreation bld len outDim baseLog level modLog)
      (Doc.lweKeyswitchKeyCreation len outDim baseLog level modLog) := by
  unfold Checks.lweKeyswitchKeyCreation Doc.lweKeyswitchKeyCreation Checks.decomposition Doc.keyGeneration
  simp only [Csprng.mulUsize_ok bld h, withVal_some, List.cons_append, List.nil_append,
    addUsize_ok bld h1, Csprng.mulUsize_ok bld h2]
  refine Reports.cons (by simp) fun _ => Reports.cons (by simp) fun hl => Reports.cons (by simp) fun _ => ?_
  rw [modUsize_ok (Nat.mul_pos hl (Nat.succ_pos _)), withVal_some]
  exact Reports.cons mod_bad fun _ => reports_nil

theorem C40_lweBootstrapKeyCreation_partial (bld : Build) (len glweSize polySize baseLog level modLog : Nat)
    (h : baseLog * level < 2 ^ 64) (h1 : level * glweSize * glweSize * polySize < 2 ^ 64)
    (hg : 0 < glweSize) (hN : 0 < polySize) :
    Reports (Checks.lweBootstrapKeyCreation bld len glweSize polySize baseLog level modLog)
      (Doc.lweBootstrapKeyCreation len glweSize polySize baseLog level modLog) := by
  have h2 : level * glweSize * glweSize < 2 ^ 64 := lt_of_le_of_lt (Nat.le_mul_of_pos_right _ hN) h1
  have h3 : level * glweSize < 2 ^ 64 := lt_of_le_of_lt (Nat.le_mul_of_pos_right _ hg) h2
  unfold Checks.lweBootstrapKeyCreation Doc.lweBootstrapKeyCreation Checks.decomposition Doc.keyGeneration
  simp only [Csprng.mulUsize_ok bld h, withVal_some, List.cons_append, List.nil_append,
    Csprng.mulUsize_ok bld h1, Csprng.mulUsize_ok bld h2, Csprng.mulUsize_ok bld h3]
  refine Reports.cons (by simp) fun _ => Reports.cons (by simp) fun hl => Reports.cons (by simp) fun _ => ?_
  rw [modUsize_ok (by positivity), withVal_some]
  exact Reports.cons mod_bad fun _ => reports_nil

/-- What is missing: a null polynomial size panics instead of returning an error. -/
theorem C40_lweBootstrapKeyCreation_violated (bld : Build) (len glweSize : Nat) :
    Checks.lweBootstrapKeyCreation bld len glweSize 0 4 3 64 = .panic := by
  unfold Checks.lweBootstrapKeyCreation Checks.decomposition
  rw [Csprng.mulUsize_ok bld (by decide : 4 * 3 < 2 ^ 64)]
  cases h : bld.mulUsize 3 glweSize with
  | none => simp [checks, bad, withVal]
  | some a =>
    cases h' : bld.mulUsize a glweSize with
    | none => simp [checks, bad, withVal, h']
    | some b =>
      have h0 : bld.mulUsize b 0 = some 0 := by
        rw [Csprng.mulUsize_ok bld (by simp)]; simp
      simp [checks, bad, withVal, h', h0, modUsize]

theorem C40_glweCiphertextCreation_partial (len polySize : Nat) (hN : 0 < polySize) :
    Reports (Checks.glweCiphertextCreation len polySize) (Doc.glweCiphertextCreation len polySize) := by
  unfold Checks.glweCiphertextCreation Doc.glweCiphertextCreation
  rw [modUsize_ok hN, withVal_some]
  exact Reports.cons (by simp) fun _ => Reports.cons mod_bad fun _ => reports_nil

theorem C40_glweCiphertextCreation_violated (len : Nat) (h : 0 < len) :
    Checks.glweCiphertextCreation len 0 = .panic := by
  have h' : (len == 0) = false := by simpa using Nat.pos_iff_ne_zero.1 h
  simp [Checks.glweCiphertextCreation, checks, bad, withVal, modUsize, h']

theorem C40_glweCiphertextVectorCreation_partial (bld : Build) (len polySize glweSize : Nat)
    (hN : 0 < polySize) (hg : 0 < glweSize) (h : polySize * glweSize < 2 ^ 64) :
    Reports (Checks.glweCiphertextVectorCreation bld len polySize glweSize)
      (Doc.glweCiphertextVectorCreation len polySize glweSize) := by
  unfold Checks.glweCiphertextVectorCreation Doc.glweCiphertextVectorCreation
  rw [Csprng.mulUsize_ok bld h, withVal_some, modUsize_ok (Nat.mul_pos hN hg), withVal_some]
  exact Reports.cons (by simp) fun _ => Reports.cons mod_bad fun _ => reports_nil

theorem C40_glweCiphertextVectorCreation_violated (bld : Build) (len glweSize : Nat) (h : 0 < len) :
    Checks.glweCiphertextVectorCreation bld len 0 glweSize = .panic := by
  have h' : (len == 0) = false := by simpa using Nat.pos_iff_ne_zero.1 h
  simp [Checks.glweCiphertextVectorCreation, checks, bad, withVal, modUsize, h',
    Csprng.mulUsize_ok bld (a := 0) (b := glweSize) (by simp)]

theorem C40_glweCiphertextVectorEncryption (key : M.Glwe) (input : M.Vec) (hN : 0 < key.polySize) :
    Reports (Checks.glweCiphertextVectorEncryption key input)
      (Doc.glweCiphertextVectorEncryption key input) := by
  unfold Checks.glweCiphertextVectorEncryption Doc.glweCiphertextVectorEncryption
  rw [modUsize_ok hN, withVal_some]
  exact Reports.cons mod_bad fun _ => reports_nil

theorem C40_glweCiphertextVectorTrivialEncryption_partial (count : Nat) (input : M.Vec) (hc : 0 < count) :
    Reports (Checks.glweCiphertextVectorTrivialEncryption count input)
      (Doc.glweCiphertextVectorTrivialEncryption count input) := by
  unfold Checks.glweCiphertextVectorTrivialEncryption Doc.glweCiphertextVectorTrivialEncryption
  rw [modUsize_ok hc, withVal_some]
  exact Reports.cons mod_bad fun _ => reports_nil

theorem C40_glweCiphertextVectorTrivialEncryption_violated (input : M.Vec) :
    Checks.glweCiphertextVectorTrivialEncryption 0 input = .panic := by
  simp [Checks.glweCiphertextVectorTrivialEncryption, checks, withVal, modUsize]

theorem C40_lweToGlweSecretKeyTransformation (key : M.Lwe) (polySize : Nat) :
    Reports (Checks.lweToGlweSecretKeyTransformation key polySize)
      (Doc.lweToGlweSecretKeyTransformation key polySize) := by
  unfold Checks.lweToGlweSecretKeyTransformation Doc.lweToGlweSecretKeyTransformation
  refine Reports.of_mem (doc := [(0 < polySize, .nullPolynomialSize), (1 < polySize, .sizeOnePolynomial),
    (polySize ∣ key.lweDim, .incompatibleLweDimension)]) ?_
    (by intro d; simp only [List.mem_cons, List.not_mem_nil]; tauto)
  refine Reports.cons (by simp) fun h0 => Reports.cons ?_ fun h1 => ?_
  · rw [beq_iff_eq]; omega
  · rw [modUsize_ok h0, withVal_some]
    exact Reports.cons mod_bad fun _ => reports_nil

theorem C40_lweCiphertextDiscardingBitExtraction_partial (bld : Build) (output : M.LweVec) (input : M.Lwe)
    (bsk : M.Bsk) (ksk : M.Ksk) (bits modLog deltaLog : Nat) (h : bits + deltaLog < 2 ^ 64) :
    Reports (Checks.lweCiphertextDiscardingBitExtraction bld output input bsk ksk bits modLog deltaLog)
      (Doc.lweCiphertextDiscardingBitExtraction output input bsk ksk bits modLog deltaLog) := by
  unfold Checks.lweCiphertextDiscardingBitExtraction Doc.lweCiphertextDiscardingBitExtraction
  rw [addUsize_ok bld h, withVal_some]
  reports

/-- What is missing: an enormous `delta_log` wraps in release builds and is accepted. -/
theorem C40_lweCiphertextDiscardingBitExtraction_violated :
    ∃ (output : M.LweVec) (input : M.Lwe) (bsk : M.Bsk) (ksk : M.Ksk) (bits deltaLog : Nat),
      deltaLog < 2 ^ 64 ∧ 64 < deltaLog + bits ∧
      Checks.lweCiphertextDiscardingBitExtraction .release output input bsk ksk bits 64 deltaLog = .ok () ∧
      Checks.lweCiphertextDiscardingBitExtraction .debug output input bsk ksk bits 64 deltaLog = .panic :=
  ⟨⟨3, 2⟩, ⟨64⟩, ⟨3, 2, 32, 1, 1⟩, ⟨64, 3, 1, 1⟩, 2, 2 ^ 64 - 1, by decide, by decide, by decide, by decide⟩

theorem C40_fft (polySize : Nat) : Reports (Checks.fft polySize) (Doc.fft polySize) := by
  unfold Checks.fft Doc.fft
  have e : Nat.isPowerOfTwo polySize ↔ ∃ k, polySize = 2 ^ k := Iff.rfl
  by_cases h : (∃ k, polySize = 2 ^ k) ∧ 32 ≤ polySize
  · rw [if_pos (by rw [e]; exact h)]
    exact ⟨fun _ => rfl, fun ⟨d, hm, hn⟩ => by
      rw [List.mem_singleton] at hm; subst hm; exact absurd h hn⟩
  · rw [if_neg (by rw [e]; exact h)]
    exact ⟨fun hd => absurd (hd _ (List.mem_singleton.2 rfl)) h,
      fun _ => ⟨_, List.mem_singleton.2 rfl, h, rfl⟩⟩

/-! ### Discarding external product -/

/-- The discarding external product accepts exactly the documented arguments. -/
theorem C40_discardingExternalProduct_partial (glweInput : M.Glwe) (ggswInput : M.Ggsw) (output : M.Glwe) :
    (Checks.glweCiphertextGgswCiphertextDiscardingExternalProduct glweInput ggswInput output = .ok () ↔
      ∀ d ∈ Doc.glweCiphertextGgswCiphertextDiscardingExternalProduct glweInput ggswInput output, d.1) ∧
    (¬ (glweInput.polySize = ggswInput.polySize ∧ output.polySize = ggswInput.polySize) →
      Checks.glweCiphertextGgswCiphertextDiscardingExternalProduct glweInput ggswInput output =
        .err .polynomialSizeMismatch) := by
  simp only [Checks.glweCiphertextGgswCiphertextDiscardingExternalProduct, checks_bad, checks_nil,
    Doc.glweCiphertextGgswCiphertextDiscardingExternalProduct, List.forall_mem_cons, List.not_mem_nil,
    Bool.or_eq_true, bne_iff_ne, ne_eq]
  constructor
  · split_ifs with h1 h2 <;> simp <;> omega
  · intro h
    rw [if_pos (by omega)]

/-- What is missing: GLWE dimensions that differ are reported as polynomial sizes that differ, and
`GlweDimensionMismatch` is never returned. -/
theorem C40_discardingExternalProduct_violated (glweInput : M.Glwe) (ggswInput : M.Ggsw) (output : M.Glwe) :
    (glweInput.polySize = ggswInput.polySize → output.polySize = ggswInput.polySize →
      ¬ (glweInput.glweDim = ggswInput.glweDim ∧ output.glweDim = ggswInput.glweDim) →
      Checks.glweCiphertextGgswCiphertextDiscardingExternalProduct glweInput ggswInput output =
        .err .polynomialSizeMismatch) ∧
    Checks.glweCiphertextGgswCiphertextDiscardingExternalProduct glweInput ggswInput output ≠
      .err .glweDimensionMismatch := by
  simp only [Checks.glweCiphertextGgswCiphertextDiscardingExternalProduct, checks_bad, checks_nil,
    Bool.or_eq_true, bne_iff_ne, ne_eq]
  constructor
  · intro h1 h2 h3
    rw [if_neg (by omega), if_pos (by omega)]
  · split_ifs <;> simp

/-- The two disagree on a reachable input. -/
example : ¬ Reports (Checks.glweCiphertextGgswCiphertextDiscardingExternalProduct ⟨1, 512⟩ ⟨2, 512, 3, 4⟩ ⟨1, 512⟩)
    (Doc.glweCiphertextGgswCiphertextDiscardingExternalProduct ⟨1, 512⟩ ⟨2, 512, 3, 4⟩ ⟨1, 512⟩) := by
  intro h
  obtain ⟨d, hm, hn, he⟩ := h.2 ⟨((1 : Nat) = 2 ∧ (1 : Nat) = 2, .glweDimensionMismatch),
    by simp [Doc.glweCiphertextGgswCiphertextDiscardingExternalProduct], by simp⟩
  rw [(C40_discardingExternalProduct_violated _ _ _).1 rfl rfl (by simp)] at he
  simp only [Doc.glweCiphertextGgswCiphertextDiscardingExternalProduct, List.mem_cons, List.not_mem_nil,
    or_false] at hm
  rcases hm with rfl | rfl
  · simp at hn
  · simp at he

/-! ### Circuit bootstrap and vertical packing -/

/-- Arguments satisfying the documented conditions are accepted, and the four conditions on the dimensions and
on the divisibility of the tables, and the one on the product of the decomposition parameters, are reported
as documented. -/
theorem C40_verticalPacking_partial (bld : Build) (input output : M.LweVec) (bsk : M.Bsk) (luts : M.Vec)
    (level baseLog : Nat) (pfpksk : M.Pfpksk) (modLog : Nat) (hc : 0 < output.count)
    (hN : 0 < pfpksk.outPolySize) (h1 : pfpksk.outPolySize * output.count < 2 ^ 64)
    (h2 : baseLog * level < 2 ^ 64) :
    ((∀ d ∈ Doc.verticalPacking input output bsk luts level baseLog pfpksk modLog, d.1) →
      Checks.verticalPacking bld input output bsk luts level baseLog pfpksk modLog = .ok ()) ∧
    (0 < baseLog → 0 < level → luts.count = 2 ^ input.count * output.count →
      Reports (Checks.verticalPacking bld input output bsk luts level baseLog pfpksk modLog)
        (Doc.verticalPacking input output bsk luts level baseLog pfpksk modLog)) := by
  have main : 0 < baseLog → 0 < level → luts.count = 2 ^ input.count * output.count →
      Reports (Checks.verticalPacking bld input output bsk luts level baseLog pfpksk modLog)
        (Doc.verticalPacking input output bsk luts level baseLog pfpksk modLog) := by
    intro hb hl hs
    have : ∀ d, d ∈ [((bsk.glweDim * bsk.polySize = pfpksk.inDim : Prop), EErr.keysLweDimensionMismatch),
        (input.lweDim = bsk.inDim, .inputLweDimensionMismatch),
        (output.lweDim = pfpksk.outGlweDim * pfpksk.outPolySize, .outputLweDimensionMismatch),
        (pfpksk.outPolySize * output.count ∣ luts.count, .malformedLookUpTables),
        (luts.count = 2 ^ input.count * output.count, .invalidSmallLookUpTableSize),
        (0 < baseLog, .nullDecompositionBaseLog), (0 < level, .nullDecompositionLevelCount),
        (baseLog * level ≤ modLog, .decompositionTooLarge)] ↔
        d ∈ Doc.verticalPacking input output bsk luts level baseLog pfpksk modLog := by
      intro d
      simp only [Doc.verticalPacking, List.mem_cons, List.not_mem_nil]
      tauto
    refine Reports.of_mem ?_ this
    unfold Checks.verticalPacking
    simp only [Csprng.mulUsize_ok bld h1, Csprng.mulUsize_ok bld h2, withVal_some, divUsize_ok hc,
      modUsize_ok (Nat.mul_pos hN hc)]
    refine Reports.cons (by simp [M.Bsk.outDim]) fun _ => Reports.cons (by simp) fun _ =>
      Reports.cons (by simp) fun _ => Reports.cons mod_bad fun hd => ?_
    refine Reports.cons ?_ fun _ => Reports.cons ?_ fun _ => Reports.cons ?_ fun _ =>
      Reports.cons (by simp) fun _ => reports_nil
    · have hle : pfpksk.outPolySize * output.count ≤ luts.count :=
        Nat.le_of_dvd (by rw [hs]; positivity) hd
      rw [decide_eq_true_eq, Nat.div_lt_iff_lt_mul hc]
      omega
    · rw [beq_iff_eq]; omega
    · rw [beq_iff_eq]; omega
  refine ⟨fun h => ?_, main⟩
  refine (main ?_ ?_ ?_).1 h
  · exact h (0 < baseLog, .nullDecompositionBaseLog) (by simp [Doc.verticalPacking])
  · exact h (0 < level, .nullDecompositionLevelCount) (by simp [Doc.verticalPacking])
  · exact h (luts.count = 2 ^ input.count * output.count, .invalidSmallLookUpTableSize)
      (by simp [Doc.verticalPacking])

/-- What is missing, on arguments of ordinary sizes: a null base logarithm is accepted; a null level count is
reported as a null base logarithm; tables whose size is not 2 to the number of inputs are accepted; keys with
different polynomial sizes are accepted, against the assertion of fft/private/crypto/wop_pbs/mod.rs:855-860
that the output dimension is the one of the bootstrap key. -/
theorem C40_verticalPacking_violated (bld : Build) :
    let bsk : M.Bsk := ⟨10, 2, 512, 2, 10⟩
    let pk : M.Pfpksk := ⟨1024, 2, 512, 9⟩
    Checks.verticalPacking bld ⟨10, 12⟩ ⟨1024, 2⟩ bsk ⟨8192⟩ 3 0 pk 64 = .ok () ∧
    Checks.verticalPacking bld ⟨10, 12⟩ ⟨1024, 2⟩ bsk ⟨8192⟩ 0 4 pk 64 = .err .nullDecompositionBaseLog ∧
    Checks.verticalPacking bld ⟨10, 3⟩ ⟨1024, 2⟩ bsk ⟨8192⟩ 3 4 pk 64 = .ok () ∧
    Checks.verticalPacking bld ⟨10, 12⟩ ⟨2048, 2⟩ bsk ⟨8192⟩ 3 4 ⟨1024, 2, 1024, 9⟩ 64 = .ok () := by
  cases bld <;> decide

/-- `NullDecompositionLevelCount` is never returned. -/
theorem C40_verticalPacking_never (bld : Build) (input output : M.LweVec) (bsk : M.Bsk) (luts : M.Vec)
    (level baseLog : Nat) (pfpksk : M.Pfpksk) (modLog : Nat) :
    Checks.verticalPacking bld input output bsk luts level baseLog pfpksk modLog ≠
      .err .nullDecompositionLevelCount := by
  have hw : ∀ (o : Option Nat) (k : Nat → Res EErr Unit) (rs : List (Res EErr Unit)),
      (∀ v, checks (k v :: rs) ≠ .err .nullDecompositionLevelCount) →
      checks (withVal o k :: rs) ≠ .err .nullDecompositionLevelCount := by
    intro o k rs h
    cases o with
    | none => simp [withVal, checks]
    | some v => exact h v
  have hb : ∀ (c : Bool) (e : EErr) (rs : List (Res EErr Unit)), e ≠ .nullDecompositionLevelCount →
      (c = false → checks rs ≠ .err .nullDecompositionLevelCount) →
      checks (bad c e :: rs) ≠ .err .nullDecompositionLevelCount := by
    intro c e rs he h
    rw [checks_bad]
    cases c with
    | false => simpa using h rfl
    | true => simpa using he
  unfold Checks.verticalPacking
  refine hb _ _ _ (by simp) fun _ => hb _ _ _ (by simp) fun _ => hb _ _ _ (by simp) fun _ =>
    hw _ _ _ fun _ => hw _ _ _ fun _ => hb _ _ _ (by simp) fun _ => hw _ _ _ fun _ =>
    hb _ _ _ (by simp) fun _ => hb _ _ _ (by simp) fun hl => ?_
  rw [hl]
  show checks (bad false _ :: _) ≠ _
  rw [checks_bad, if_neg (by simp)]
  exact hw _ _ _ fun _ => hb _ _ _ (by simp) fun _ => by simp [checks]

/-! ### Decoding a plaintext vector -/

/-- `decode_plaintext_vector` does not perform the documented check: whatever the counts it returns `Ok`, and
when they differ the end of the longer one is dropped. -/
theorem C40_plaintextVectorDecoding_violated {ε π κ : Type} (dec : ε → π → κ) (encoder : List ε)
    (input : List π) :
    ∃ out, decodePlaintextVector dec encoder input = .ok out ∧
      out.length = min encoder.length input.length := by
  exact ⟨_, rfl, by simp⟩

/-- The part that holds: with equal counts every plaintext is decoded with its encoder. -/
theorem C40_plaintextVectorDecoding_partial {ε π κ : Type} (dec : ε → π → κ) (encoder : List ε)
    (input : List π) (h : encoder.length = input.length) :
    ∃ out, decodePlaintextVector dec encoder input = .ok out ∧ out.length = input.length ∧
      ∀ i (h1 : i < encoder.length) (h2 : i < input.length), out[i]? = some (dec encoder[i] input[i]) := by
  refine ⟨_, rfl, by simp [h], fun i h1 h2 => ?_⟩
  simp [h1, h2]

/-! ### The checked function -/

/-- A checked function whose generic checks report exactly the documented violations: when the documented
conditions hold it behaves as the unchecked function and returns `Ok`; otherwise it returns the error of a
violated condition and the output argument is unchanged. -/
theorem C40_checked_call {α : Type} {chk : Res EErr Unit} {doc : Doc} (h : Reports chk doc) (body : α → α)
    (out : α) :
    ((∀ d ∈ doc, d.1) ∧ checkedCall chk body out = (.ok (), body out)) ∨
    (∃ d ∈ doc, ¬ d.1 ∧ checkedCall chk body out = (.err d.2, out)) := by
  by_cases hd : ∀ d ∈ doc, d.1
  · exact Or.inl ⟨hd, by rw [h.1 hd]; rfl⟩
  · push Not at hd
    obtain ⟨d, hm, hn⟩ := hd
    obtain ⟨d', h1, h2, h3⟩ := h.2 ⟨d, hm, hn⟩
    exact Or.inr ⟨d', h1, h2, by rw [h3]; rfl⟩

/-! ### Concrete cases -/

example : Checks.lweCiphertextDiscardingKeyswitch ⟨3⟩ ⟨7⟩ ⟨7, 3, 2, 4⟩ = .ok () := by decide
example : Checks.lweCiphertextDiscardingKeyswitch ⟨3⟩ ⟨6⟩ ⟨7, 3, 2, 4⟩ = .err .inputLweDimensionMismatch := by
  decide
example : Checks.lweCiphertextDiscardingBootstrap ⟨1024⟩ ⟨5⟩ ⟨2, 512⟩ ⟨5, 2, 512, 3, 7⟩ = .ok () := by decide
example : (5 : Nat) * 4 < 2 ^ 64 ∧ Checks.keyGeneration .release 5 4 32 = .ok () ∧
    Checks.keyGeneration .release 9 4 32 = .err .decompositionTooLarge := by decide
example : Checks.verticalPacking .debug ⟨10, 12⟩ ⟨1024, 2⟩ ⟨10, 2, 512, 2, 10⟩ ⟨8192⟩ 3 4 ⟨1024, 2, 512, 9⟩ 64 =
    .ok () := by decide
example : Checks.lweBootstrapKeyCreation .debug 3072 2 16 4 3 64 = .ok () ∧
    Checks.lweBootstrapKeyCreation .debug 3073 2 16 4 3 64 = .err .invalidContainerSize := by decide

end Verif.Engine
