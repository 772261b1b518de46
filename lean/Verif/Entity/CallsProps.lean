import Verif.Entity.Calls
import Verif.Entity.CallsSpec
import Verif.Entity.Lemmas
import Verif.Glwe.Props2
import Verif.Lwe.Props2
import Verif.Pks.Props2
/-
Property C105: the calls of Entity/Calls.lean, in both builds, never panic on well-formed entities with supported
parameters: they report the first dimension that does not fit, or they compute what they announce.
-/
set_option linter.unusedSectionVars false
namespace Verif.Entity
open Verif.Engine Verif.Random Verif.Poly Verif.Glwe Verif.Decomp Verif.Lwe Verif.Pks

variable {w : Nat}

theorem GlweCiphertext.Wf.dim {x : GlweCiphertext (BitVec w)} {k : Nat} (h : x.Wf k) (m : Build) :
    x.maskSize m = some k := by
  have h1 : k + 1 < 2 ^ 64 := lt_of_mul_lt_l h.poly h.mem
  simp only [GlweCiphertext.maskSize, GlweCiphertext.size, divU_ok h.poly h.len, Option.bind_eq_bind,
    Option.bind_some, subU_ok m (by omega : 1 ≤ k + 1) h1]
  rfl

theorem LweList.Wf.dim {x : LweList (BitVec w)} {n c : Nat} (h : x.Wf n c) (m : Build) : x.maskSize m = some n := by
  rw [LweList.maskSize, h.size, subU_ok m (by omega) h.mem]; rfl

theorem LweList.Wf.count {x : LweList (BitVec w)} {n c : Nat} (h : x.Wf n c) (m : Build) :
    LweList.count m x = some c := by
  rw [LweList.count, h.size, ck1 m (fits1 c (by omega) h.mem h.len)]
  exact divU_ok (by omega) h.len

theorem PackingKey.Wf.outDim {x : PackingKey (BitVec w)} {n k : Nat} (h : x.Wf n k) (m : Build) :
    x.outputDimension m = some k := by
  have h1 : k + 1 < 2 ^ 64 := lt_of_mul_lt_l h.poly (lt_of_mul_lt_r h.level h.mem)
  rw [PackingKey.outputDimension, h.size, subU_ok m (by omega) h1]; rfl

theorem PackingKey.Wf.inDim {x : PackingKey (BitVec w)} {n k : Nat} (h : x.Wf n k) (m : Build) :
    x.inputDimension m = some n := by
  have e : [x.glweSize, x.polySize, x.levelCount].prod = x.levelCount * ((k + 1) * x.polySize) := by
    simp only [h.size, List.prod_cons, List.prod_nil]; ring
  have hp := prodU_eq m [x.glweSize, x.polySize, x.levelCount] (by simp [h.size, h.level, h.poly]) e h.mem
  simp only [PackingKey.inputDimension, hp, Option.bind_eq_bind, Option.bind_some]
  exact divU_ok (Nat.mul_pos h.level (Nat.mul_pos (by omega) h.poly)) h.len

theorem PackingKey.Wf.inDimPrivate {x : PackingKey (BitVec w)} {n k : Nat} (h : x.Wf (n + 1) k) (m : Build) :
    x.inputDimensionPrivate m = some n := by
  have h1 : PackingKey.inputDimensionPrivate m x = (x.inputDimension m).bind fun d => subU m d 1 := by
    simp only [PackingKey.inputDimensionPrivate, PackingKey.inputDimension, Option.bind_eq_bind, Option.bind_assoc]
  rw [h1, h.inDim m]
  exact subU_ok m (by omega) h.count

theorem BootstrapKey.Wf.dims {x : BootstrapKey (BitVec w)} {n k : Nat} (h : x.Wf n k) (m : Build) :
    x.dims m = some ⟨n, k, x.polySize, x.levelCount, x.baseLog⟩ := by
  have hkk : (k + 1) * ((k + 1) * x.polySize) < 2 ^ 64 := lt_of_mul_lt_r h.level h.mem
  have hk : k + 1 < 2 ^ 64 := lt_of_mul_lt_l (Nat.mul_pos (by omega) h.poly) hkk
  have hk2 : (k + 1) * (k + 1) < 2 ^ 64 := lt_of_mul_lt_l h.poly (by rw [Nat.mul_assoc]; exact hkk)
  have hp : x.polySize < 2 ^ 64 := lt_of_mul_lt_r (by omega) (lt_of_mul_lt_r (by omega : 0 < k + 1) hkk)
  have hl : x.levelCount < 2 ^ 64 := lt_of_mul_lt_l (Nat.mul_pos (by omega) (Nat.mul_pos (by omega) h.poly)) h.mem
  have e : [x.glweSize, x.glweSize, x.polySize, x.levelCount].prod =
      x.levelCount * ((k + 1) * ((k + 1) * x.polySize)) := by
    simp only [h.size, List.prod_cons, List.prod_nil]; ring
  have hpr := prodU_eq m [x.glweSize, x.glweSize, x.polySize, x.levelCount] (by simp [h.size, h.level, h.poly]) e h.mem
  have hck : ckDimDiv m x.tensor.length [[x.polySize], [x.glweSize, x.glweSize], [x.levelCount]] = some () := by
    refine ck3 m (fits1 (n * (x.levelCount * ((k + 1) * (k + 1)))) h.poly hp (by rw [h.len]; ring)) ?_
      (fits1 (n * ((k + 1) * ((k + 1) * x.polySize))) h.level hl (by rw [h.len]; ring))
    rw [h.size]
    exact fits2 (n * (x.levelCount * x.polySize)) (by omega) (by omega) hk2 (by rw [h.len]; ring)
  have hs : subU m x.glweSize 1 = some k := by rw [h.size, subU_ok m (by omega) hk]; rfl
  have hd : divU x.tensor.length (x.levelCount * ((k + 1) * ((k + 1) * x.polySize))) = some n :=
    divU_ok (Nat.mul_pos h.level (Nat.mul_pos (by omega) (Nat.mul_pos (by omega) h.poly))) h.len
  simp only [BootstrapKey.dims, BootstrapKey.keySize, hck, hpr, hd, hs, Option.bind_eq_bind, Option.bind_some]

theorem KeyswitchKey.Wf.dims {x : KeyswitchKey (BitVec w)} {n n' : Nat} (h : x.Wf n n') (m : Build) :
    x.dims m = some ⟨n, n', x.levelCount, x.baseLog⟩ := by
  have hk : n' + 1 < 2 ^ 64 := lt_of_mul_lt_r h.level h.mem
  have hpr := prodU_eq m [x.lweSize, x.levelCount] (v := x.levelCount * (n' + 1)) (by simp [h.size, h.level])
    (by simp only [h.size, List.prod_cons, List.prod_nil]; ring) h.mem
  have hs : subU m x.lweSize 1 = some n' := by rw [h.size, subU_ok m (by omega) hk]; rfl
  have hd : divU x.tensor.length (x.levelCount * (n' + 1)) = some n := divU_ok (Nat.mul_pos h.level (by omega)) h.len
  simp only [KeyswitchKey.dims, KeyswitchKey.inputDimension, KeyswitchKey.outputDimension, hpr, hd, hs,
    Option.bind_eq_bind, Option.bind_some]

/-- C105, sample extraction: an output of another dimension than `k N` or an index of at least `N` is reported;
otherwise the new output decrypts, under the GLWE key read as an LWE key, to coefficient `nth` of the decryption of
the GLWE ciphertext. -/
theorem C105_extraction (m : Build) {k n : Nat} (out : List (BitVec w)) (inp : GlweCiphertext (BitVec w)) (nth : Nat)
    (ho : out.length = n + 1) (hn : n + 1 < 2 ^ 64) (hi : inp.Wf k) :
    (n ≠ k * inp.polySize → discardExtract m out inp nth = .err .sizeMismatch) ∧
    (n = k * inp.polySize → inp.polySize ≤ nth → discardExtract m out inp nth = .err .monomialIndexTooLarge) ∧
    (n = k * inp.polySize → nth < inp.polySize → ∃ r, discardExtract m out inp nth = .ok r ∧
      ∀ key buf, KeyFits inp.polySize k key → buf.length = inp.polySize →
        decryptLwe (intoLweSecretKey key) r = some ((decryptGlwe inp.polySize key buf inp.tensor).getD nth 0)) := by
  have hd : lweCiphertextDimension m out = some n := by
    rw [lweCiphertextDimension, ho, subU_ok m (by omega) hn]; rfl
  have hcall : discardExtract m out inp nth =
      afterChecks (Checks.lweCiphertextDiscardingExtraction ⟨n⟩ ⟨k, inp.polySize⟩ nth)
        (sampleExtract inp.polySize inp.tensor out nth) := by
    simp only [discardExtract, hd, hi.dim m]
  rw [hcall]
  refine ⟨fun h => ?_, fun h1 h2 => ?_, fun h1 h2 => ?_⟩
  · rw [Nat.mul_comm] at h
    simp [Checks.lweCiphertextDiscardingExtraction, checks, bad, h, afterChecks]
  · rw [Nat.mul_comm] at h1
    simp [Checks.lweCiphertextDiscardingExtraction, checks, bad, h1, h2, afterChecks]
  · have hchk : Checks.lweCiphertextDiscardingExtraction ⟨n⟩ ⟨k, inp.polySize⟩ nth = .ok () := by
      rw [Nat.mul_comm] at h1
      simp [Checks.lweCiphertextDiscardingExtraction, checks, bad, h1, Nat.not_le.2 h2]
    have hl : out.length = k * inp.polySize + 1 := by rw [ho, h1]
    cases e : sampleExtract inp.polySize inp.tensor out nth with
    | none =>
      exact absurd ((C25_panics inp.polySize k inp.tensor out hi.len nth).1 e) (by simp [h2, hl])
    | some r =>
      refine ⟨r, by rw [hchk]; rfl, fun key buf hk hb => ?_⟩
      obtain ⟨r', g1, g2⟩ := C25_sample_extraction inp.polySize k key buf inp.tensor out hk hi.len hb hl nth h2
      rw [e] at g1
      injection g1 with g1
      rw [g1]; exact g2

/-- C105, packing keyswitch: the first dimension that does not fit is reported; otherwise, with a key whose block
`i` encrypts `s_i` with errors at most `B`, the new output decrypts to the phase of ciphertext `t` in coefficient
`t` and to zero in the others, up to the announced error. -/
theorem C105_packing (m : Build) {n c n' k k' : Nat} (out : GlweCiphertext (BitVec w)) (inp : LweList (BitVec w))
    (ksk : PackingKey (BitVec w)) (ho : out.Wf k) (hi : inp.Wf n c) (hk : ksk.Wf n' k') :
    (n ≠ n' → discardPackingKeyswitch m out inp ksk = .err .inputLweDimensionMismatch) ∧
    (n = n' → k ≠ k' → discardPackingKeyswitch m out inp ksk = .err .outputGlweDimensionMismatch) ∧
    (n = n' → k = k' → out.polySize ≠ ksk.polySize →
      discardPackingKeyswitch m out inp ksk = .err .outputPolynomialSizeMismatch) ∧
    (n = n' → k = k' → out.polySize = ksk.polySize → out.polySize < c →
      discardPackingKeyswitch m out inp ksk = .err .ciphertextCountMismatch) ∧
    (n = n' → k = k' → out.polySize = ksk.polySize → c ≤ out.polySize →
      ∀ (s key buf : List (BitVec w)) (err : Nat → Nat → Rq (BitVec w) out.polySize) (B : Int),
        ValidParams w ksk.baseLog ksk.levelCount → s.length = n →
        KeyEnc out.polySize k ksk.baseLog ksk.levelCount n key ksk.tensor (fun i => const out.polySize (s.getD i 0)) err →
        (∀ i j, i < n → j < ksk.levelCount → Small out.polySize B (err i j)) → BinaryKey s →
        KeyFits out.polySize k key → buf.length = out.polySize →
        ∃ (r : GlweCiphertext (BitVec w)) (E : Nat → Int),
          discardPackingKeyswitch m out inp ksk = .ok r ∧ r.Wf k ∧ r.polySize = out.polySize ∧
          ∀ t, t < out.polySize → (decryptGlwe out.polySize key buf r.tensor).getD t 0 =
              (if t < c then phase s (block (n + 1) inp.tensor t) else 0) + ((E t : Int) : BitVec w) ∧
            |E t| ≤ (if t < c then n * 2 ^ (w - ksk.baseLog * ksk.levelCount - 1) else 0) +
              c * (n * (ksk.levelCount * (2 ^ (ksk.baseLog - 1) * B)))) := by
  have hcall : discardPackingKeyswitch m out inp ksk =
      afterChecks (Checks.lweCiphertextVectorGlweCiphertextDiscardingPackingKeyswitch ⟨k, out.polySize⟩ ⟨n, c⟩
        ⟨n', k', ksk.polySize, 0⟩)
        ((packingKeyswitch m ksk.baseLog ksk.levelCount ksk.polySize k' inp.lweSize ksk.tensor out.tensor
          inp.tensor).map fun t => { out with tensor := t }) := by
    simp only [discardPackingKeyswitch, hi.dim m, hi.count m, hk.inDim m, ho.dim m, hk.outDim m]
  rw [hcall]
  simp only [Checks.lweCiphertextVectorGlweCiphertextDiscardingPackingKeyswitch]
  refine ⟨fun h => ?_, fun h1 h2 => ?_, fun h1 h2 h3 => ?_, fun h1 h2 h3 h4 => ?_, ?_⟩
  · simp [checks, bad, h, afterChecks]
  · simp [checks, bad, h1, h2, afterChecks]
  · simp [checks, bad, h1, h2, h3, afterChecks]
  · simp [checks, bad, h1, h2, h3 ▸ h4, h3, afterChecks]
  · rintro rfl rfl h3 h4 s key buf err B hv rfl hke he hs hkf hbuf
    have hchk : checks [bad (s.length != s.length) .inputLweDimensionMismatch,
        bad (k != k) .outputGlweDimensionMismatch, bad (out.polySize != ksk.polySize) .outputPolynomialSizeMismatch,
        bad (decide (c > out.polySize)) .ciphertextCountMismatch] = .ok () := by
      simp [checks, bad, ← h3, Nat.not_lt.2 h4]
    obtain ⟨r, E, g1, g2, g3⟩ := C32_decrypt m ho.poly ksk.baseLog ksk.levelCount c hv s key ksk.tensor out.tensor
      inp.tensor buf err B hke he hs hkf ho.len hi.len h4 hbuf
    refine ⟨{ out with tensor := r }, E, ?_, ⟨ho.poly, g2, ho.mem⟩, rfl, g3⟩
    rw [hchk, hi.size, ← h3, g1]; rfl

/-- C105, keyswitch: the first dimension that does not fit is reported; otherwise, with a key whose ciphertext `k` of
block `i` encrypts `s_i 2^(w-b(k+1))` with errors at most `B`, the new output decrypts under the second key to what
the input decrypts to under the first, up to the announced error. -/
theorem C105_keyswitch (m : Build) {o n i n' : Nat} (out inp : List (BitVec w)) (ksk : KeyswitchKey (BitVec w))
    (ho : out.length = o + 1) (ho' : o + 1 < 2 ^ 64) (hi : inp.length = i + 1) (hi' : i + 1 < 2 ^ 64)
    (hk : ksk.Wf n n') :
    (i ≠ n → discardKeyswitch m out inp ksk = .err .inputLweDimensionMismatch) ∧
    (i = n → o ≠ n' → discardKeyswitch m out inp ksk = .err .outputLweDimensionMismatch) ∧
    (i = n → o = n' → ∀ (s s' : List (BitVec w)) (e : Nat → Nat → Int) (B : Nat),
      ValidParams w ksk.baseLog ksk.levelCount → s.length = n → s'.length = n' → BinaryKey s →
      (∀ i, i < n → ∀ j, j < ksk.levelCount → phase s' (block (n' + 1) ksk.tensor (i * ksk.levelCount + j)) =
        s.getD i 0 * ((2 ^ (w - ksk.baseLog * (j + 1)) : Nat) : BitVec w) + ((e i j : Int) : BitVec w)) →
      (∀ i, i < n → ∀ j, j < ksk.levelCount → |e i j| ≤ B) →
      ∃ (r : List (BitVec w)) (E : Int), discardKeyswitch m out inp ksk = .ok r ∧ r.length = n' + 1 ∧
        phase s' r = phase s inp + (E : BitVec w) ∧
        |E| ≤ n * 2 ^ (w - ksk.baseLog * ksk.levelCount - 1) + n * ksk.levelCount * 2 ^ (ksk.baseLog - 1) * B) := by
  have h1 : lweCiphertextDimension m out = some o := by
    rw [lweCiphertextDimension, ho, subU_ok m (by omega) ho']; rfl
  have h2 : lweCiphertextDimension m inp = some i := by
    rw [lweCiphertextDimension, hi, subU_ok m (by omega) hi']; rfl
  have hcall : discardKeyswitch m out inp ksk =
      afterChecks (Checks.lweCiphertextDiscardingKeyswitch ⟨o⟩ ⟨i⟩ ⟨n, n', ksk.levelCount, ksk.baseLog⟩)
        (keyswitchCiphertext ksk.baseLog ksk.levelCount ksk.lweSize ksk.tensor out inp) := by
    simp only [discardKeyswitch, h1, h2, hk.dims m]
  rw [hcall]
  simp only [Checks.lweCiphertextDiscardingKeyswitch]
  refine ⟨fun h => ?_, fun h1 h2 => ?_, ?_⟩
  · simp [checks, bad, h, afterChecks]
  · simp [checks, bad, h1, h2, afterChecks]
  · rintro rfl rfl s s' e B hv hs hs' hbin hrow he
    subst hs; subst hs'
    obtain ⟨r, E, g1, g2, g3, g4⟩ := C16_error_bound ksk.baseLog ksk.levelCount hv s s' ksk.tensor out inp e B hk.len
      hrow he hbin ho hi
    exact ⟨r, E, by simp [checks, bad, hk.size, g1, afterChecks], g2, g3, g4⟩

/-- C105, private functional packing keyswitch: the first dimension that does not fit is reported; otherwise, with a
key for the function `x ↦ λ x P`, the phase of the new output is `λ P Σ_t X^t phase(c_t)` up to an error of the
announced size. -/
theorem C105_private_packing (m : Build) {n c n' k k' : Nat} (out : GlweCiphertext (BitVec w))
    (inp : LweList (BitVec w)) (ksk : PackingKey (BitVec w)) (ho : out.Wf k) (hi : inp.Wf n c)
    (hk : ksk.Wf (n' + 1) k') :
    (n ≠ n' → discardPrivatePackingKeyswitch m out inp ksk = .err .inputLweDimensionMismatch) ∧
    (n = n' → k ≠ k' → discardPrivatePackingKeyswitch m out inp ksk = .err .outputGlweDimensionMismatch) ∧
    (n = n' → k = k' → out.polySize ≠ ksk.polySize →
      discardPrivatePackingKeyswitch m out inp ksk = .err .outputPolynomialSizeMismatch) ∧
    (n = n' → k = k' → out.polySize = ksk.polySize → out.polySize < c →
      discardPrivatePackingKeyswitch m out inp ksk = .err .ciphertextCountMismatch) ∧
    (n = n' → k = k' → out.polySize = ksk.polySize → c ≤ out.polySize →
      ∀ (s key P : List (BitVec w)) (lam : BitVec w) (err : Nat → Nat → Rq (BitVec w) out.polySize) (A B : Int),
        ValidParams w ksk.baseLog ksk.levelCount → s.length = n →
        KeyEnc out.polySize k ksk.baseLog ksk.levelCount (n + 1) key ksk.tensor
          (fun i => const out.polySize (lam * (s ++ [-1]).getD i 0) * toRq out.polySize P) err →
        (∀ i j, i < n + 1 → j < ksk.levelCount → Small out.polySize B (err i j)) →
        Small out.polySize A (const out.polySize lam * toRq out.polySize P) → BinaryKey s →
        ∃ (r : GlweCiphertext (BitVec w)) (e : Rq (BitVec w) out.polySize),
          discardPrivatePackingKeyswitch m out inp ksk = .ok r ∧ r.Wf k ∧ r.polySize = out.polySize ∧
          Small out.polySize (c * ((n + 1) * 2 ^ (w - ksk.baseLog * ksk.levelCount - 1) * A +
            (n + 1) * (ksk.levelCount * (2 ^ (ksk.baseLog - 1) * B)))) e ∧
          glwePhase out.polySize k key r.tensor = const out.polySize lam * toRq out.polySize P *
            ∑ t ∈ Finset.range c, Xq (BitVec w) out.polySize ^ t *
              const out.polySize (phase s (block (n + 1) inp.tensor t)) + e) := by
  have hcall : discardPrivatePackingKeyswitch m out inp ksk =
      afterChecks (Checks.lweCiphertextVectorGlweCiphertextDiscardingPrivateFunctionalPackingKeyswitch
        ⟨k, out.polySize⟩ ⟨n, c⟩ ⟨n', k', ksk.polySize, 0⟩)
        ((privatePackingKeyswitch m ksk.baseLog ksk.levelCount ksk.polySize k' inp.lweSize ksk.tensor out.tensor
          inp.tensor).map fun t => { out with tensor := t }) := by
    simp only [discardPrivatePackingKeyswitch, hi.dim m, hi.count m, hk.inDimPrivate m, ho.dim m, hk.outDim m]
  rw [hcall]
  simp only [Checks.lweCiphertextVectorGlweCiphertextDiscardingPrivateFunctionalPackingKeyswitch]
  refine ⟨fun h => ?_, fun h1 h2 => ?_, fun h1 h2 h3 => ?_, fun h1 h2 h3 h4 => ?_, ?_⟩
  · simp [checks, bad, h, afterChecks]
  · simp [checks, bad, h1, h2, afterChecks]
  · simp [checks, bad, h1, h2, h3, afterChecks]
  · simp [checks, bad, h1, h2, h3 ▸ h4, h3, afterChecks]
  · rintro rfl rfl h3 h4 s key P lam err A B hv rfl hke he hA hs
    have hchk : checks [bad (s.length != s.length) .inputLweDimensionMismatch,
        bad (k != k) .outputGlweDimensionMismatch, bad (out.polySize != ksk.polySize) .outputPolynomialSizeMismatch,
        bad (decide (c > out.polySize)) .ciphertextCountMismatch] = .ok () := by
      simp [checks, bad, ← h3, Nat.not_lt.2 h4]
    obtain ⟨r, e, g1, g2, g3, g4⟩ := C33_packing m ho.poly ksk.baseLog ksk.levelCount c hv s key ksk.tensor P
      out.tensor inp.tensor lam err A B hke he hA hs ho.len hi.len (Or.inr h4)
    refine ⟨{ out with tensor := r }, e, ?_, ⟨ho.poly, g2, ho.mem⟩, rfl, g3, g4⟩
    rw [hchk, hi.size, ← h3, g1]; rfl

/-- C105, conversion of a bootstrap key into a view: it never panics; it succeeds exactly when all dimensions and
parameters are those of the input, and the view then holds the input. -/
theorem C105_convert_bootstrap_key (m : Build) {n k n' k' : Nat} (out inp : BootstrapKey (BitVec w))
    (ho : out.Wf n k) (hi : inp.Wf n' k') :
    (n = n' ∧ k = k' ∧ out.polySize = inp.polySize ∧ out.levelCount = inp.levelCount ∧ out.baseLog = inp.baseLog →
      discardConvertBsk m out inp = .ok inp) ∧
    (¬ (n = n' ∧ k = k' ∧ out.polySize = inp.polySize ∧ out.levelCount = inp.levelCount ∧
        out.baseLog = inp.baseLog) → ∃ e, discardConvertBsk m out inp = .err e) := by
  simp only [discardConvertBsk, ho.dims m, hi.dims m, Checks.lweBootstrapKeyDiscardingConversion]
  constructor
  · rintro ⟨rfl, rfl, h1, h2, h3⟩
    have hl : out.tensor.length = inp.tensor.length := by rw [ho.len, hi.len, h1, h2]
    have hg : out.glweSize = inp.glweSize := by rw [ho.size, hi.size]
    simp only [checks, bad, h1, h2, h3, bne_self_eq_false, Bool.false_eq_true, if_false, Tensor.fillWithCopy, if_pos hl,
      Option.map_some, afterChecks, hg]
  · intro h
    by_cases a1 : n' = n
    · by_cases a2 : k' = k
      · by_cases a3 : inp.polySize = out.polySize
        · by_cases a4 : inp.baseLog = out.baseLog
          · have a5 : inp.levelCount ≠ out.levelCount := fun a5 => h ⟨a1.symm, a2.symm, a3.symm, a5.symm, a4.symm⟩
            exact ⟨.decompositionLevelCountMismatch, by simp [checks, bad, a1, a2, a3, a4, a5, afterChecks]⟩
          · exact ⟨.decompositionBaseLogMismatch, by simp [checks, bad, a1, a2, a3, a4, afterChecks]⟩
        · exact ⟨.polynomialSizeMismatch, by simp [checks, bad, a1, a2, a3, afterChecks]⟩
      · exact ⟨.glweDimensionMismatch, by simp [checks, bad, a1, a2, afterChecks]⟩
    · exact ⟨.lweDimensionMismatch, by simp [checks, bad, a1, afterChecks]⟩

/-- C105, conversion of a keyswitch key into a view. -/
theorem C105_convert_keyswitch_key (m : Build) {n k n' k' : Nat} (out inp : KeyswitchKey (BitVec w))
    (ho : out.Wf n k) (hi : inp.Wf n' k') :
    (n = n' ∧ k = k' ∧ out.levelCount = inp.levelCount ∧ out.baseLog = inp.baseLog →
      discardConvertKsk m out inp = .ok inp) ∧
    (¬ (n = n' ∧ k = k' ∧ out.levelCount = inp.levelCount ∧ out.baseLog = inp.baseLog) →
      ∃ e, discardConvertKsk m out inp = .err e) := by
  simp only [discardConvertKsk, ho.dims m, hi.dims m, Checks.lweKeyswitchKeyDiscardingConversion]
  constructor
  · rintro ⟨rfl, rfl, h2, h3⟩
    have hl : out.tensor.length = inp.tensor.length := by rw [ho.len, hi.len, h2]
    have hg : out.lweSize = inp.lweSize := by rw [ho.size, hi.size]
    simp only [checks, bad, h2, h3, bne_self_eq_false, Bool.false_eq_true, if_false, Tensor.fillWithCopy, if_pos hl,
      Option.map_some, afterChecks, hg]
  · intro h
    by_cases a1 : n' = n
    · by_cases a2 : k' = k
      · by_cases a4 : inp.baseLog = out.baseLog
        · have a5 : inp.levelCount ≠ out.levelCount := fun a5 => h ⟨a1.symm, a2.symm, a5.symm, a4.symm⟩
          exact ⟨.decompositionLevelCountMismatch, by simp [checks, bad, a1, a2, a4, a5, afterChecks]⟩
        · exact ⟨.decompositionBaseLogMismatch, by simp [checks, bad, a1, a2, a4, afterChecks]⟩
      · exact ⟨.outputLweDimensionMismatch, by simp [checks, bad, a1, a2, afterChecks]⟩
    · exact ⟨.inputLweDimensionMismatch, by simp [checks, bad, a1, afterChecks]⟩

/-! ### Trivial GGSW encryption -/

theorem gadgetU_ok (m : Build) (b lev : Nat) (h1 : 1 ≤ b * lev) (h2 : b * lev ≤ w) (hw : w < 2 ^ 64) :
    gadgetU m w b lev = some (gadget w b lev) := by
  cases m
  · simp only [gadgetU, gadget, if_pos (And.intro h1 h2)]
  · have e : (w + 2 ^ 64 - b * lev % 2 ^ 64) % 2 ^ 64 % w = w - b * lev := by
      rw [Nat.mod_eq_of_lt (by omega : b * lev < 2 ^ 64)]
      rw [show w + 2 ^ 64 - b * lev = (w - b * lev) + 2 ^ 64 by omega, Nat.add_mod_right,
        Nat.mod_eq_of_lt (by omega : w - b * lev < 2 ^ 64), Nat.mod_eq_of_lt (by omega)]
    simp only [gadgetU, gadget, e]

theorem trivialLevels_ok (m : Build) (N k b : Nat) (msg : BitVec w) (hw : w < 2 ^ 64) (hb : 0 < b) :
    ∀ (l : List (List (BitVec w))) (j : Nat), b * (j + l.length) ≤ w →
      trivialLevels m N k b msg j l = some (l.mapIdx fun i matrix =>
        (addDiagonal N (msg * gadget w b (i + j + 1)) (chunks ((k + 1) * N) matrix)).flatten)
  | [], _, _ => rfl
  | x :: l, j, h => by
    have hj : b * (j + 1) ≤ w := le_trans (Nat.mul_le_mul_left b (by simp)) h
    rw [trivialLevels, gadgetU_ok m b (j + 1) (Nat.mul_pos hb (by omega)) hj hw,
      trivialLevels_ok m N k b msg hw hb l (j + 1) (by rw [List.length_cons] at h; rwa [Nat.add_assoc, Nat.add_comm 1])]
    simp only [List.mapIdx_cons, Nat.zero_add, Option.some.injEq, List.cons.injEq, true_and]
    congr 1
    funext i matrix
    rw [show i + (j + 1) + 1 = i + 1 + j + 1 by omega]

theorem cleared_zero (N S n : Nat) (hS : 0 < S) :
    ((chunks S (List.replicate n (0#w))).map fun row => (maskOf N row).map (fun _ => 0#w) ++ bodyOf N row).flatten =
      List.replicate n 0#w := by
  have h0 : ∀ row ∈ chunks S (List.replicate n (0#w)),
      (maskOf N row).map (fun _ => 0#w) ++ bodyOf N row = row := by
    intro row hrow
    have hz : ∀ x ∈ row, x = 0#w := by
      intro x hx
      have : x ∈ (chunks S (List.replicate n (0#w))).flatten := List.mem_flatten.2 ⟨row, hrow, hx⟩
      rw [chunks_flatten S hS] at this
      exact (List.mem_replicate.1 this).2
    have hm : (maskOf N row).map (fun _ => 0#w) = maskOf N row := by
      conv_rhs => rw [← List.map_id (maskOf N row)]
      exact List.map_congr_left fun x hx => (hz x (List.mem_of_mem_take hx)).symm
    rw [hm, maskOf, bodyOf, List.take_append_drop]
  rw [List.map_congr_left h0, List.map_id', chunks_flatten S hS]

/-- C105, trivial GGSW encryption: for supported parameters (`1 ≤ b`, `b l ≤ w`) both builds return a GGSW
ciphertext of the requested dimensions that encrypts the message without noise, under every key. -/
theorem C105_trivial_ggsw (m : Build) (N k level b : Nat) (msg : BitVec w) (hN : 0 < N) (hl : 0 < level) (hb : 0 < b)
    (hw : w < 2 ^ 64) (hv : b * level ≤ w) (hmem : level * ((k + 1) * ((k + 1) * N)) < 2 ^ 64) :
    ∃ g, triviallyEncryptGgsw m N k level b msg = .ok g ∧ g.polySize = N ∧ g.glweSize = k + 1 ∧ g.baseLog = b ∧
      ∀ key, GgswEnc N k b level key g.tensor (AdjoinRoot.of _ msg) (fun _ _ => 0) := by
  have hS : 0 < (k + 1) * N := Nat.mul_pos (by omega) hN
  have hG : 0 < (k + 1) * ((k + 1) * N) := Nat.mul_pos (by omega) hS
  have e : [level, k + 1, k + 1, N].prod = level * ((k + 1) * ((k + 1) * N)) := by
    simp only [List.prod_cons, List.prod_nil]; ring
  have hp := prodU_eq m [level, k + 1, k + 1, N] (by simp [hl, hN]) e hmem
  have hcl : (chunks ((k + 1) * ((k + 1) * N)) (List.replicate (level * ((k + 1) * ((k + 1) * N))) 0#w)).length
      = level := chunks_length _ hG _ _ (by simp)
  have ht := trivialLevels_ok m N k b msg hw hb
    (chunks ((k + 1) * ((k + 1) * N)) (List.replicate (level * ((k + 1) * ((k + 1) * N))) 0#w)) 0
    (by rw [hcl, Nat.zero_add]; exact hv)
  refine ⟨⟨newTrivialGgsw N k b level msg, N, k + 1, b⟩, ?_, rfl, rfl, rfl,
    fun key => C26_trivial_new N k b level hN key msg⟩
  simp only [triviallyEncryptGgsw, Ggsw.allocate, hp, Option.bind_eq_bind, Option.bind_some, ht, newTrivialGgsw,
    fillTrivialGgsw, cleared_zero N _ _ hS, Nat.add_zero]

/-- C105 fails for the trivial GGSW encryption with parameters that every other GGSW or key generation call refuses:
17 bits and two levels on 32-bit words. The debug build panics; the release build returns a ciphertext whose
second level holds `2^30`, which is no gadget value. -/
theorem C105_trivial_ggsw_violated :
    triviallyEncryptGgsw .debug 1 0 2 17 1#32 = .panic ∧
    triviallyEncryptGgsw .release 1 0 2 17 1#32 = .ok ⟨[BitVec.ofNat 32 (2 ^ 15), BitVec.ofNat 32 (2 ^ 30)], 1, 1, 17⟩ := by
  decide +kernel

/-! ### Examples: the hypotheses are met -/

example : (⟨[1#32, 2#32, 3#32, 4#32], 2⟩ : GlweCiphertext (BitVec 32)).Wf 1 := ⟨by decide, by decide, by decide⟩

example : discardExtract .debug [0#32, 0#32, 0#32] ⟨[1#32, 2#32, 3#32, 4#32], 2⟩ 1 = .ok [2#32, 1#32, 4#32] ∧
    discardExtract .debug [0#32, 0#32, 0#32] ⟨[1#32, 2#32, 3#32, 4#32], 2⟩ 2 = .err .monomialIndexTooLarge ∧
    discardExtract .release [0#32, 0#32] ⟨[1#32, 2#32, 3#32, 4#32], 2⟩ 1 = .err .sizeMismatch := by
  decide +kernel

example : (⟨[1#32, 2#32, 3#32, 4#32], 2⟩ : LweList (BitVec 32)).Wf 1 2 ∧
    (⟨[0#32, 0#32, 2 ^ 28, 0#32], 4, 1, 2, 2⟩ : PackingKey (BitVec 32)).Wf 1 1 :=
  ⟨⟨rfl, rfl, by decide⟩, ⟨by decide, by decide, rfl, rfl, by decide, by decide⟩⟩

example : discardPackingKeyswitch .debug ⟨[0#32, 0#32, 0#32, 0#32], 2⟩ ⟨[1#32 <<< 28, 2#32, 3#32, 4#32], 2⟩
      ⟨[0#32, 0#32, 2 ^ 28, 0#32], 4, 1, 2, 2⟩ = .ok ⟨[0, 0, 2 - 2 ^ 28, 4], 2⟩ ∧
    discardPackingKeyswitch .debug ⟨[0#32], 1⟩ ⟨[1#32, 2#32, 3#32, 4#32], 2⟩
      ⟨[0#32, 0#32, 2 ^ 28, 0#32], 4, 1, 2, 2⟩ = .err .outputGlweDimensionMismatch := by
  decide +kernel

example : (⟨[1#32, 2#32], 3, 1, 2⟩ : KeyswitchKey (BitVec 32)).Wf 1 1 ∧
    (⟨[1#32, 2#32, 3#32, 4#32], 1, 2, 1, 3⟩ : BootstrapKey (BitVec 32)).Wf 1 1 :=
  ⟨⟨by decide, rfl, rfl, by decide⟩, ⟨by decide, by decide, rfl, rfl, by decide⟩⟩

example : discardKeyswitch .debug [9#32, 9#32] [1#32 <<< 28, 2#32] ⟨[7#32, 2 ^ 28], 4, 1, 2⟩ = .ok [-7, 2 - 2 ^ 28] ∧
    discardKeyswitch .debug [9#32, 9#32] [2#32] ⟨[7#32, 2 ^ 28], 4, 1, 2⟩ = .err .inputLweDimensionMismatch ∧
    discardKeyswitch .debug [9#32] [1#32 <<< 28, 2#32] ⟨[7#32, 2 ^ 28], 4, 1, 2⟩ = .err .outputLweDimensionMismatch := by
  decide +kernel

example : ∃ g, triviallyEncryptGgsw .debug 2 1 1 4 (3#32) = .ok g ∧ g.tensor.length = 8 := by
  refine ⟨⟨[3 * 2 ^ 28, 0, 0, 0, 0, 0, 3 * 2 ^ 28, 0], 2, 2, 4⟩, ?_, rfl⟩
  decide +kernel

end Verif.Entity
