import Verif.Entity.Create
import Verif.Entity.Props
/-
Property theorems of the creation engines (C58): a created entity has the requested dimensions, its elements
are the consecutive parts of the container, and retrieving it returns the container.
-/
set_option linter.unusedVariables false

namespace Verif.Entity

open Verif.Csprng Verif.Engine

variable {α : Type}

theorem mulUsize_ok' (m : Build) {a b : Nat} (h : a * b < 2 ^ 64) : m.mulUsize a b = some (a * b) := by
  cases m
  · exact if_pos h
  · simp only [Build.mulUsize, USIZE, Nat.mod_eq_of_lt h]

theorem addUsize_ok (m : Build) {a b : Nat} (h : a + b < 2 ^ 64) : addUsize m a b = some (a + b) := by
  simp only [addUsize, if_pos h]

/-- C58, LWE ciphertexts: any non-empty container is a ciphertext. -/
theorem C58_lwe_ciphertext (m : Build) (cont : List α) (h64 : cont.length < 2 ^ 64) :
    (cont = [] → createLweCiphertext cont = .err .emptyContainer) ∧
    (cont ≠ [] → createLweCiphertext cont = .ok cont ∧
      lweCiphertextDimension m cont = some (cont.length - 1) ∧ retrieveLweCiphertext cont = cont) := by
  refine ⟨fun h => by subst h; rfl, fun h => ⟨?_, subU_ok m (List.length_pos_iff.2 h) h64, rfl⟩⟩
  have : (cont.length == 0) = false := by simpa using h
  simp [createLweCiphertext, Checks.lweCiphertextCreation, checks, bad, this, afterChecks]

/-- C58, plaintext and cleartext vectors: creation followed by either kind of retrieval. -/
theorem C58_plaintext_vector (input output : List α) :
    (input = [] → createPlaintextVector input = .err .emptyInput) ∧
    (input ≠ [] → ∃ x, createPlaintextVector input = .ok x ∧ x.length = input.length ∧
      (output.length = input.length → discardRetrievePlaintextVector output x = .ok input) ∧
      (output.length ≠ input.length →
        discardRetrievePlaintextVector output x = .err .plaintextCountMismatch)) := by
  refine ⟨fun h => by subst h; rfl, fun h => ⟨input, ?_, rfl, fun h => ?_, fun h => ?_⟩⟩
  · rw [createPlaintextVector, if_neg (by simpa using h)]
  · rw [discardRetrievePlaintextVector, if_neg (by simpa using h)]
  · rw [discardRetrievePlaintextVector, if_pos h]

/-- C58, GLWE ciphertexts, for a polynomial size that is not null: accepted exactly when the container holds
at least one whole polynomial and nothing else. -/
theorem C58_glwe_ciphertext (m : Build) (cont : List α) (N : Nat) (hN : 0 < N) (h64 : cont.length < 2 ^ 64) :
    (cont = [] → createGlweCiphertext cont N = .err .emptyContainer) ∧
    (cont ≠ [] → ¬ N ∣ cont.length → createGlweCiphertext cont N = .err .invalidContainerSize) ∧
    (∀ dim, cont.length = (dim + 1) * N → ∃ x mask body, createGlweCiphertext cont N = .ok x ∧
      x.maskSize m = some dim ∧ x.polySize = N ∧ x.getMask m = some mask ∧ x.getBody m = some body ∧
      mask ++ body = cont ∧ body.length = N ∧ retrieveGlweCiphertext x = cont) := by
  refine ⟨fun h => by subst h; rfl, fun h hd => ?_, fun dim hl => ?_⟩
  · have h0 : (cont.length == 0) = false := by simpa using h
    have hd' : (cont.length % N != 0) = true := by simpa [Nat.dvd_iff_mod_eq_zero] using hd
    simp only [createGlweCiphertext, Checks.glweCiphertextCreation, checks, bad, h0, modUsize,
      if_neg (Nat.ne_of_gt hN), withVal, hd', afterChecks, if_true, Bool.false_eq_true, if_false]
  · obtain ⟨mask, body, polys, h1, h2, h3, h4, h5, h6, h7, h8, -⟩ := C57_glwe m cont N dim hN (hl ▸ h64) hl
    refine ⟨_, mask, body, ?_, h2, rfl, h3, h4, h6, h8, rfl⟩
    have hpos : 0 < cont.length := by rw [hl]; exact Nat.mul_pos (Nat.succ_pos _) hN
    have h0 : (cont.length == 0) = false := by simpa using Nat.ne_of_gt hpos
    have hd' : (cont.length % N != 0) = false := by rw [hl]; simp
    simp only [createGlweCiphertext, Checks.glweCiphertextCreation, checks, bad, h0, modUsize,
      if_neg (Nat.ne_of_gt hN), withVal, hd', afterChecks, Bool.false_eq_true, if_false]

/-- C58, vectors of GLWE ciphertexts. -/
theorem C58_glwe_ciphertext_vector (m : Build) (cont : List α) (dim N : Nat) (hN : 0 < N)
    (hb : (dim + 1) * N < 2 ^ 64) :
    (cont = [] → createGlweVector m cont dim N = .err .emptyContainer) ∧
    (cont ≠ [] → ¬ (dim + 1) * N ∣ cont.length → createGlweVector m cont dim N = .err .invalidContainerSize) ∧
    (∀ n, 0 < n → cont.length = n * ((dim + 1) * N) → ∃ x cts, createGlweVector m cont dim N = .ok x ∧
      x.glweDimension m = some dim ∧ x.polySize = N ∧ x.count m = some n ∧
      x.ciphertextIter m = some cts ∧ Splits cont n ((dim + 1) * N) (cts.map GlweCiphertext.tensor) ∧
      retrieveGlweVector x = cont) := by
  have ho : 0 < dim + 1 := Nat.succ_pos _
  have hadd : addUsize m dim 1 = some (dim + 1) := addUsize_ok m (lt_of_mul_lt_l hN hb)
  have hmul : m.mulUsize N (dim + 1) = some ((dim + 1) * N) := by
    rw [mulUsize_ok' m (by rw [Nat.mul_comm]; exact hb), Nat.mul_comm]
  have hne : (dim + 1) * N ≠ 0 := Nat.ne_of_gt (Nat.mul_pos ho hN)
  refine ⟨fun h => ?_, fun h hd => ?_, fun n hn hl => ?_⟩
  · subst h; simp only [createGlweVector, hadd]; rfl
  · have h0 : (cont.length == 0) = false := by simpa using h
    have hd' : (cont.length % ((dim + 1) * N) != 0) = true := by simpa [Nat.dvd_iff_mod_eq_zero] using hd
    simp only [createGlweVector, hadd, Checks.glweCiphertextVectorCreation, checks, bad, h0, hmul, modUsize,
      if_neg hne, withVal, hd', afterChecks, if_true, Bool.false_eq_true, if_false]
  · obtain ⟨x, h1, h2, h3, h4, h5, h6, ⟨cts, h7, h8, -⟩, -⟩ := C57_glwe_list m cont N dim n hN hb hl
    refine ⟨x, cts, ?_, h5, h3, h6, h7, h8, h2⟩
    have hpos : 0 < cont.length := by rw [hl]; exact Nat.mul_pos hn (Nat.mul_pos ho hN)
    have h0 : (cont.length == 0) = false := by simpa using Nat.ne_of_gt hpos
    have hd' : (cont.length % ((dim + 1) * N) != 0) = false := by rw [hl]; simp
    simp only [createGlweVector, hadd, Checks.glweCiphertextVectorCreation, checks, bad, h0, hmul, modUsize,
      if_neg hne, withVal, hd', afterChecks, Bool.false_eq_true, if_false, h1]

/-- C58, keyswitching keys. -/
theorem C58_keyswitch_key (m : Build) (modLog : Nat) (cont : List α) (outDim base levels : Nat)
    (hbase : 0 < base) (hlv : 0 < levels) (hdec : base * levels ≤ modLog) (hmod : modLog < 2 ^ 64)
    (hb : levels * (outDim + 1) < 2 ^ 64) :
    (¬ levels * (outDim + 1) ∣ cont.length →
      createKeyswitchKey m modLog cont outDim base levels = .err .invalidContainerSize) ∧
    (∀ n, cont.length = n * (levels * (outDim + 1)) →
      ∃ x, createKeyswitchKey m modLog cont outDim base levels = .ok x ∧ x.inputDimension m = some n ∧
        x.outputDimension m = some outDim ∧ x.levelCount = levels ∧ x.baseLog = base ∧
        retrieveKeyswitchKey x = cont) := by
  have ho : 0 < outDim + 1 := Nat.succ_pos _
  have hadd : addUsize m outDim 1 = some (outDim + 1) := addUsize_ok m (lt_of_mul_lt_r hlv hb)
  have hmul := mulUsize_ok' m hb
  have hmul' : m.mulUsize base levels = some (base * levels) := mulUsize_ok' m (by omega)
  have hne : levels * (outDim + 1) ≠ 0 := Nat.ne_of_gt (Nat.mul_pos hlv ho)
  have e1 : (base == 0) = false := by simpa using Nat.ne_of_gt hbase
  have e2 : (levels == 0) = false := by simpa using Nat.ne_of_gt hlv
  have e3 : (decide (base * levels > modLog)) = false := by simpa using hdec
  refine ⟨fun hd => ?_, fun n hl => ?_⟩
  · have hd' : (cont.length % (levels * (outDim + 1)) != 0) = true := by
      simpa [Nat.dvd_iff_mod_eq_zero] using hd
    simp only [createKeyswitchKey, Checks.lweKeyswitchKeyCreation, Checks.decomposition, List.cons_append,
      List.nil_append, checks, bad, e1, e2, hmul', withVal, e3, hadd, hmul, modUsize, if_neg hne, hd',
      afterChecks, if_true, Bool.false_eq_true, if_false]
  · obtain ⟨x, h1, h2, h3, h4, h5, h6, -⟩ := C57_keyswitch_key m cont base levels outDim n hlv hb hl
    refine ⟨x, ?_, h3, h4, h5, h6, h2⟩
    have hd' : (cont.length % (levels * (outDim + 1)) != 0) = false := by rw [hl]; simp
    simp only [createKeyswitchKey, Checks.lweKeyswitchKeyCreation, Checks.decomposition, List.cons_append,
      List.nil_append, checks, bad, e1, e2, hmul', withVal, e3, hadd, hmul, modUsize, if_neg hne, hd',
      afterChecks, Bool.false_eq_true, if_false, h1]

/-- C58, bootstrapping keys. -/
theorem C58_bootstrap_key (m : Build) (modLog : Nat) (cont : List α) (G N base levels : Nat) (hG : 0 < G)
    (hN : 0 < N) (hbase : 0 < base) (hlv : 0 < levels) (hdec : base * levels ≤ modLog)
    (hmod : modLog < 2 ^ 64) (hb : G * G * N * levels < 2 ^ 64) :
    (¬ G * G * N * levels ∣ cont.length →
      createBootstrapKey m modLog cont G N base levels = .err .invalidContainerSize) ∧
    (∀ n, cont.length = n * (G * G * N * levels) →
      ∃ x, createBootstrapKey m modLog cont G N base levels = .ok x ∧ x.keySize m = some n ∧
        x.glweSize = G ∧ x.polySize = N ∧ x.levelCount = levels ∧ x.baseLog = base ∧
        retrieveBootstrapKey x = cont) := by
  have hpos : 0 < G * G * N * levels := Nat.mul_pos (Nat.mul_pos (Nat.mul_pos hG hG) hN) hlv
  have hb3 : levels * G * G * N < 2 ^ 64 := by
    rw [show levels * G * G * N = G * G * N * levels by ring]; exact hb
  have hb2 := lt_of_mul_lt_l hN hb3
  have hb1 := lt_of_mul_lt_l hG hb2
  have hmul1 := mulUsize_ok' m hb1
  have hmul2 := mulUsize_ok' m hb2
  have hmul3 := mulUsize_ok' m hb3
  have hmul' : m.mulUsize base levels = some (base * levels) := mulUsize_ok' m (by omega)
  have heq : levels * G * G * N = G * G * N * levels := by ring
  have hne : levels * G * G * N ≠ 0 := by rw [heq]; exact Nat.ne_of_gt hpos
  have e1 : (base == 0) = false := by simpa using Nat.ne_of_gt hbase
  have e2 : (levels == 0) = false := by simpa using Nat.ne_of_gt hlv
  have e3 : (decide (base * levels > modLog)) = false := by simpa using hdec
  refine ⟨fun hd => ?_, fun n hl => ?_⟩
  · have hd' : (cont.length % (levels * G * G * N) != 0) = true := by
      rw [heq]; simpa [Nat.dvd_iff_mod_eq_zero] using hd
    simp only [createBootstrapKey, Checks.lweBootstrapKeyCreation, Checks.decomposition, List.cons_append,
      List.nil_append, checks, bad, e1, e2, hmul', withVal, e3, hmul1, hmul2, hmul3, modUsize, if_neg hne, hd',
      afterChecks, if_true, Bool.false_eq_true, if_false]
  · obtain ⟨x, h1, h2, h3, h4, h5, h6, h7, -⟩ := C57_bootstrap_key m cont N G levels base n hN hG hlv hb hl
    refine ⟨x, ?_, h7, h4, h3, h5, h6, h2⟩
    have hd' : (cont.length % (levels * G * G * N) != 0) = false := by rw [heq, hl]; simp
    simp only [createBootstrapKey, Checks.lweBootstrapKeyCreation, Checks.decomposition, List.cons_append,
      List.nil_append, checks, bad, e1, e2, hmul', withVal, e3, hmul1, hmul2, hmul3, modUsize, if_neg hne, hd',
      afterChecks, Bool.false_eq_true, if_false, h1]

/-- C58, vectors of LWE ciphertexts, when the length of the container is a multiple of the LWE size. The
engine does not check this: see `C58_violated_lwe_vector`. -/
theorem C58_lwe_ciphertext_vector_partial (m : Build) (cont : List α) (size : Nat) (hs : 0 < size)
    (hb : size < 2 ^ 64) :
    (cont = [] → createLweVector m cont size = .err .emptyContainer) ∧
    (∀ n, 0 < n → cont.length = n * size → ∃ x cts, createLweVector m cont size = .ok x ∧
      x.maskSize m = some (size - 1) ∧ x.count m = some n ∧ x.ciphertextIter m = some cts ∧
      Splits cont n size cts ∧ retrieveLweVector x = cont) := by
  refine ⟨fun h => by subst h; rfl, fun n hn hl => ?_⟩
  obtain ⟨x, h1, h2, h3, h4, h5, ⟨cts, h6, h7⟩, -⟩ := C57_lwe_list m cont size n hs hb hl
  refine ⟨x, cts, ?_, h4, h5, h6, h7, h2⟩
  have hpos : 0 < cont.length := by rw [hl]; exact Nat.mul_pos hn hs
  have h0 : (cont.length == 0) = false := by simpa using Nat.ne_of_gt hpos
  simp only [createLweVector, Checks.lweCiphertextVectorCreation, checks, bad, h0, afterChecks,
    Bool.false_eq_true, if_false, h1]

/-- C58 fails for vectors of LWE ciphertexts: a container whose length is not a multiple of the LWE size is
not reported as an error. A debug build panics; a release build returns a vector that counts one
ciphertext, iterates over two, the second of which is cut. A null LWE size is accepted by a release build. -/
theorem C58_violated_lwe_vector :
    createLweVector .debug [1, 2, 3, 4, 5] 3 = .panic ∧
    (∃ x, createLweVector .release [1, 2, 3, 4, 5] 3 = .ok x ∧ x.count .release = some 1 ∧
      x.ciphertextIter .release = some [[1, 2, 3], [4, 5]]) ∧
    (∃ x, createLweVector .release [1, 2, 3] 0 = .ok x ∧ x.count .release = none ∧
      x.maskSize .release = some (2 ^ 64 - 1)) :=
  ⟨by decide, ⟨_, rfl, by decide, by decide⟩, ⟨_, rfl, by decide, by decide⟩⟩

/-- C58 fails for a null polynomial size: GLWE creation panics instead of returning its error. -/
theorem C58_violated_null_polynomial_size (m : Build) :
    createGlweCiphertext [1, 2] 0 = .panic ∧ createGlweVector m [1, 2] 1 0 = .panic := by
  cases m <;> decide

example : ∃ x, createKeyswitchKey .debug 64 (List.range 12) 1 4 2 = .ok x ∧
    x.inputDimension .debug = some 3 := ⟨_, rfl, by decide⟩

end Verif.Entity
