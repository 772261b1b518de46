import Verif.Wop.Calls
import Verif.Wop.CallsSpec
import Verif.Wop.Props2
import Verif.Wop.Props6
import Verif.Wop.Examples2
import Verif.Pbs.CallsProps
/-
Property C109: the two calls of the Fourier engine for messages without padding report a polynomial size that is not
supported, then the first dimension that does not fit, or compute what they announce; and with keys generated in a history
the two calls together look up a table at the message of a ciphertext.
-/
set_option linter.unusedSectionVars false
namespace Verif.Wop
open Verif.Engine Verif.Entity Verif.Poly Verif.Glwe Verif.Decomp Verif.Pbs Verif.Pks
open Verif.Csprng (Build)

variable {w : Nat}

/-! ### Lemmas -/

theorem checks_val (v : Nat) (o : Option Nat) (h : o = some v) (f : Nat → Res EErr Unit) (rs : List (Res EErr Unit)) :
    checks (withVal o f :: rs) = checks (f v :: rs) := by rw [h]; rfl

theorem mulUsize_ok (m : Build) {a b : Nat} (h : a * b < 2 ^ 64) : m.mulUsize a b = some (a * b) := by
  cases m
  · exact if_pos h
  · exact congrArg some (Nat.mod_eq_of_lt h)

theorem addUsize_ok (m : Build) {a b : Nat} (h : a + b < 2 ^ 64) : addUsize m a b = some (a + b) := by
  unfold addUsize; rw [if_pos h]

theorem modUsize_ok {a b : Nat} (h : b ≠ 0) : modUsize a b = some (a % b) := if_neg h

theorem divUsize_ok {a b : Nat} (h : b ≠ 0) : divUsize a b = some (a / b) := if_neg h

theorem binary_bound {key : List (BitVec w)} (hw : 1 < w) (h : Lwe.BinaryKey key) : KeyBound 1 key := by
  intro z hz
  rcases h z hz with rfl | rfl
  · simp
  · rw [show (1 : BitVec w) = 1#w from rfl, BitVec.toInt_one hw]; simp

theorem KeyListWf.dims {x : PackingKeyList (BitVec w)} {n k c : Nat} (h : KeyListWf x n k c) (m : Build) :
    keyListDims m x = some ⟨n, k, x.polySize, 0⟩ := by
  have h1 : 0 < x.levelCount * ((k + 1) * x.polySize) := Nat.mul_pos h.level (Nat.mul_pos (by omega) h.poly)
  have hn : n + 1 < 2 ^ 64 := lt_of_mul_lt_l h1 h.mem
  have hk : k + 1 < 2 ^ 64 := lt_of_mul_lt_l h.poly (lt_of_mul_lt_r h.level (lt_of_mul_lt_r (by omega) h.mem))
  rw [keyListDims, h.inSize, h.size, subU_ok m (by omega) hn, subU_ok m (by omega) hk]
  rfl

theorem KeyListWf.keys {x : PackingKeyList (BitVec w)} {n k c : Nat} (h : KeyListWf x n k c) (m : Build) :
    ∃ ks, x.keyIter m = some ks ∧
      ks.map PackingKey.tensor = chunks ((n + 1) * (x.levelCount * ((k + 1) * x.polySize))) x.tensor := by
  obtain ⟨t, b, l, i, g, N⟩ := x
  obtain ⟨hl, hN, rfl, rfl, hlen, hmem⟩ := h
  simp only at hl hN hlen hmem ⊢
  have hk : 0 < k + 1 := Nat.succ_pos _
  have hn : 0 < n + 1 := Nat.succ_pos _
  have e : (n + 1) * (l * ((k + 1) * N)) = (k + 1) * N * l * (n + 1) := by ring
  rw [e] at hlen hmem ⊢
  have b1 : (k + 1) * N * l < 2 ^ 64 := lt_of_mul_lt_l hn hmem
  have b2 : (k + 1) * N < 2 ^ 64 := lt_of_mul_lt_l hl b1
  have hpos : 0 < (k + 1) * N * l * (n + 1) := by positivity
  have hp := prod4 m hk hN hl hn hmem
  have hck1 := ck1 m (fits1 c hpos hmem hlen)
  have hsub := subtensors_ok m hpos t hlen
  rw [← chunks_eq _ hpos _ _ hlen] at hsub
  have hmap : (chunks ((k + 1) * N * l * (n + 1)) t).mapM (fun p => do
      let dim ← subU m (k + 1) 1
      PackingKey.fromContainer m p b l dim N) =
      some ((chunks ((k + 1) * N * l * (n + 1)) t).map fun p => ⟨p, b, l, k + 1, N⟩) := by
    refine mapM_some _ _ _ fun p hp => ?_
    rw [chunks_eq _ hpos _ _ hlen] at hp
    obtain ⟨i, hi', rfl⟩ := List.mem_map.1 hp
    have hbl : (block ((k + 1) * N * l * (n + 1)) t i).length = (k + 1) * N * l * (n + 1) :=
      block_length _ _ _ (by rw [hlen]; exact Nat.mul_le_mul_right _ (List.mem_range.1 hi'))
    have := ck2 m (len := (block ((k + 1) * N * l * (n + 1)) t i).length)
      (fits2 (l * (n + 1)) hk hN b2 (by rw [hbl]; ring))
      (fits1 ((k + 1) * N * (n + 1)) hl (lt_of_mul_lt_r (a := (k + 1) * N) (by positivity) b1) (by rw [hbl]; ring))
    rw [subU_ok m hk (lt_of_mul_lt_l hN b2)]
    simp only [PackingKey.fromContainer, Nat.add_sub_cancel, this, Option.bind_eq_bind, Option.bind_some]
  refine ⟨(chunks ((k + 1) * N * l * (n + 1)) t).map fun p => ⟨p, b, l, k + 1, N⟩, ?_, ?_⟩
  · simp only [PackingKeyList.keyIter, hp, hck1, hsub, Option.bind_eq_bind, Option.bind_some] at hmap ⊢
    exact hmap
  · rw [List.map_map]; exact List.map_id' _

variable (T : Transform w)

theorem convertBsk_dims {m : Build} {x : BootstrapKey (BitVec w)} {n k : Nat} (h : x.Wf n k) {f : FourierBsk T}
    (hf : convertBsk T m x = .ok f) :
    Supported x.polySize ∧ f.polySize = x.polySize ∧ f.dims T m = some ⟨n, k, x.polySize, x.levelCount, x.baseLog⟩ ∧
      bootstrapWith T f k = fun o c a => bootstrap (cmuxFft T x.polySize k x.baseLog x.levelCount) x.polySize
        (Nat.log2 x.polySize) o c a (bskGgsws T x.polySize k x.levelCount x.tensor) := by
  obtain ⟨hs, rfl⟩ := convertBsk_eq T h hf
  have hk : k + 1 < 2 ^ 64 := lt_of_mul_lt_l (Nat.mul_pos (by omega) h.poly) (lt_of_mul_lt_r h.level h.mem)
  refine ⟨hs, rfl, ?_, rfl⟩
  rw [FourierBsk.dims, subU_ok m (by omega) hk]; rfl

/-! ### C109, bit extraction -/

/-- The call up to its computation. -/
theorem extractBitsCall_eq (m : Build) (out : LweList (BitVec w)) (inp : List (BitVec w)) (bsk : BootstrapKey (BitVec w))
    (f : FourierBsk T) (ksk : KeyswitchKey (BitVec w)) (bits delta : Nat) {o c i n k kn kn' : Nat} (ho : out.Wf o c)
    (hi : inp.length = i + 1) (hi2 : i + 1 < 2 ^ 64) (hb : bsk.Wf n k) (hf : convertBsk T m bsk = .ok f)
    (hk : ksk.Wf kn kn') (hbd : bits + delta < 2 ^ 64) :
    extractBitsCall T m out inp f ksk bits delta =
      if i ≠ k * bsk.polySize then .err (.generic .inputLweDimensionMismatch)
      else if i ≠ kn then .err (.generic .inputKeyswitchKeyLweDimensionMismatch)
      else if o ≠ kn' then .err (.generic .outputLweDimensionMismatch)
      else if c ≠ bits then .err (.generic .extractedBitsCountMismatch)
      else if kn' ≠ n then .err (.generic .keyDimensionMismatch)
      else if w < bits + delta then .err (.generic .notEnoughBitsToExtract)
      else match extractBits m (fun o c => Lwe.keyswitchCiphertext ksk.baseLog ksk.levelCount (kn' + 1) ksk.tensor o c)
          (fun o c a => bootstrap (cmuxFft T bsk.polySize k bsk.baseLog bsk.levelCount) bsk.polySize
            (Nat.log2 bsk.polySize) o c a (bskGgsws T bsk.polySize k bsk.levelCount bsk.tensor))
          bsk.polySize k delta bits (o + 1) out.tensor inp with
        | some t => .ok ⟨t, out.lweSize⟩
        | none => .panic := by
  obtain ⟨hs, h1, h2, h3⟩ := convertBsk_dims T hb hf
  have h4 : lweCiphertextDimension m inp = some i := by rw [lweCiphertextDimension, hi, subU_ok m (by omega) hi2]; rfl
  unfold extractBitsCall
  rw [h1, fftThen_ok hs, ho.dim m, ho.count m, h4, h2, hk.dims m]
  simp only [Checks.lweCiphertextDiscardingBitExtraction, checks_bad, checks_nil, bne_iff_ne, M.Bsk.outDim, h3,
    checks_val _ _ (addUsize_ok m hbd), decide_eq_true_eq, hk.size, ho.size, Option.map]
  split_ifs <;> first | rfl | skip
  cases extractBits m (fun o c => Lwe.keyswitchCiphertext ksk.baseLog ksk.levelCount (kn' + 1) ksk.tensor o c)
          (fun o c a => bootstrap (cmuxFft T bsk.polySize k bsk.baseLog bsk.levelCount) bsk.polySize
            (Nat.log2 bsk.polySize) o c a (bskGgsws T bsk.polySize k bsk.levelCount bsk.tensor))
          bsk.polySize k delta bits (o + 1) out.tensor inp <;> rfl

/-- C109, bit extraction: with a converted bootstrap key, the first of these is reported: an input that is not of the output
dimension of the bootstrap key, or not of the input dimension of the keyswitch key, an output that is not of the output
dimension of the keyswitch key, or not of the requested count, keys that do not follow one another, more bits than there are
above `delta`. Otherwise, with keys that encrypt what they should, a ciphertext of `msg 2^delta` with an error at most `E0`
gives ciphertexts of the bits of `msg` at the top bit, most significant first, whatever the output held. -/
theorem C109_extract_bits_partial (m : Build) (out : LweList (BitVec w)) (inp : List (BitVec w))
    (bsk : BootstrapKey (BitVec w)) (f : FourierBsk T) (ksk : KeyswitchKey (BitVec w)) (bits delta : Nat)
    {o c i n k kn kn' : Nat} (ho : out.Wf o c) (hi : inp.length = i + 1) (hi2 : i + 1 < 2 ^ 64) (hb : bsk.Wf n k)
    (hf : convertBsk T m bsk = .ok f) (hk : ksk.Wf kn kn') (hbd : bits + delta < 2 ^ 64) :
    (i ≠ k * bsk.polySize →
      extractBitsCall T m out inp f ksk bits delta = .err (.generic .inputLweDimensionMismatch)) ∧
    (i = k * bsk.polySize → i ≠ kn →
      extractBitsCall T m out inp f ksk bits delta = .err (.generic .inputKeyswitchKeyLweDimensionMismatch)) ∧
    (i = k * bsk.polySize → i = kn → o ≠ kn' →
      extractBitsCall T m out inp f ksk bits delta = .err (.generic .outputLweDimensionMismatch)) ∧
    (i = k * bsk.polySize → i = kn → o = kn' → c ≠ bits →
      extractBitsCall T m out inp f ksk bits delta = .err (.generic .extractedBitsCountMismatch)) ∧
    (i = k * bsk.polySize → i = kn → o = kn' → c = bits → kn' ≠ n →
      extractBitsCall T m out inp f ksk bits delta = .err (.generic .keyDimensionMismatch)) ∧
    (i = k * bsk.polySize → i = kn → o = kn' → c = bits → kn' = n → w < bits + delta →
      extractBitsCall T m out inp f ksk bits delta = .err (.generic .notEnoughBitsToExtract)) ∧
    (i = k * bsk.polySize → i = kn → o = kn' → c = bits → kn' = n → bits + delta ≤ w → 0 < delta ∨ bits ≤ 1 →
      ∀ (D B S E : Int) (s s' : List (BitVec w)) (eks : Nat → Nat → Int) (Bk msg : Nat) (E0 e K P : Int),
        Nat.log2 bsk.polySize + 2 < w → T.Accurate bsk.polySize (bsk.levelCount * (k + 1)) D B →
        2 ^ (bsk.baseLog - 1) ≤ D → ValidParams w bsk.baseLog bsk.levelCount → 0 ≤ B → 0 ≤ S → 0 ≤ E →
        ValidParams w ksk.baseLog ksk.levelCount → KeyFits bsk.polySize k s → KeyBound S s → Lwe.BinaryKey s →
        s'.length = n → Lwe.BinaryKey s' → BskEnc bsk.polySize k bsk.baseLog bsk.levelCount s' s bsk.tensor E →
        (∀ i, i < s.length → ∀ j, j < ksk.levelCount →
          Lwe.phase s' (block (n + 1) ksk.tensor (i * ksk.levelCount + j)) =
            s.getD i 0 * ((2 ^ (w - ksk.baseLog * (j + 1)) : Nat) : BitVec w) + ((eks i j : Int) : BitVec w)) →
        (∀ i, i < s.length → ∀ j, j < ksk.levelCount → |eks i j| ≤ Bk) →
        |e| ≤ E0 → Lwe.phase s inp = ((msg * 2 ^ delta + e : Int) : BitVec w) →
        K = s.length * 2 ^ (w - ksk.baseLog * ksk.levelCount - 1) +
          s.length * ksk.levelCount * 2 ^ (ksk.baseLog - 1) * Bk →
        P = n * epBound w bsk.polySize k bsk.baseLog bsk.levelCount S E B 1 →
        (∀ i, i + 1 < bits → (E0 + i * P) * 2 ^ (w - delta - i - 1) + K +
          (1 + weight s') * 2 ^ (w - Nat.log2 bsk.polySize - 2) < 2 ^ (w - 2)) →
        ∃ r, extractBitsCall T m out inp f ksk bits delta = .ok r ∧ r.Wf n bits ∧
          ∀ i, i < bits → ∃ g : Int, |g| ≤ (E0 + i * P) * 2 ^ (w - delta - i - 1) + K ∧
            Lwe.phase s' (block (n + 1) r.tensor (bits - 1 - i)) =
              (((if msg.testBit i then 2 ^ (w - 1) else 0) + g : Int) : BitVec w)) := by
  rw [extractBitsCall_eq T m out inp bsk f ksk bits delta ho hi hi2 hb hf hk hbd]
  refine ⟨fun a1 => if_pos a1, fun a1 a2 => ?_, fun a1 a2 a3 => ?_, fun a1 a2 a3 a4 => ?_, fun a1 a2 a3 a4 a5 => ?_,
    fun a1 a2 a3 a4 a5 a6 => ?_, fun a1 a2 a3 a4 a5 a6 a7 => ?_⟩
  · rw [if_neg (not_not.2 a1), if_pos a2]
  · rw [if_neg (not_not.2 a1), if_neg (not_not.2 a2), if_pos a3]
  · rw [if_neg (not_not.2 a1), if_neg (not_not.2 a2), if_neg (not_not.2 a3), if_pos a4]
  · rw [if_neg (not_not.2 a1), if_neg (not_not.2 a2), if_neg (not_not.2 a3), if_neg (not_not.2 a4), if_pos a5]
  · rw [if_neg (not_not.2 a1), if_neg (not_not.2 a2), if_neg (not_not.2 a3), if_neg (not_not.2 a4),
      if_neg (not_not.2 a5), if_pos a6]
  · rw [if_neg (not_not.2 a1), if_neg (not_not.2 a2), if_neg (not_not.2 a3), if_neg (not_not.2 a4),
      if_neg (not_not.2 a5), if_neg (by omega)]
    intro D B S E s s' eks Bk msg E0 e K P hlog hT hD hv hB hS0 hE hbk hs hS hsb hn hs' hbsk hrow heks he hp hK hP hQ
    obtain ⟨hsup, -⟩ := convertBsk_eq T hb hf
    have hsl : s.length = kn := by rw [← a2, a1]; exact hs
    subst hn
    obtain ⟨res, r1, r2, r3⟩ := C45_extract_bits m T bsk.polySize k bsk.baseLog bsk.levelCount (Nat.log2 bsk.polySize)
      ksk.baseLog ksk.levelCount hsup.log hlog D B S E hT hD hv hB hS0 hE hbk s s' bsk.tensor ksk.tensor inp out.tensor hs hS
      hsb hs' hbsk (by rw [hk.len, hsl, a5]) eks Bk hrow heks delta bits msg (by omega) a7
      (by rw [Lwe.Fits, hi, hsl, a2]) (by rw [ho.len, a4, a3, a5]) E0 e he hp K P hK hP hQ
    rw [a3, a5, r1]
    exact ⟨_, rfl, ⟨by rw [ho.size, a3, a5], r2, by rw [← a5, ← a3]; exact ho.mem⟩, r3⟩

/-- What `C109_extract_bits_partial` leaves out: with `delta = 0` the call accepts to extract two bits or more, and a
debug build panics (for release builds see the example of C45). -/
theorem C109_extract_bits_violated (out : LweList (BitVec w)) (inp : List (BitVec w))
    (bsk : BootstrapKey (BitVec w)) (f : FourierBsk T) (ksk : KeyswitchKey (BitVec w)) (bits : Nat)
    {o c i n k kn kn' : Nat} (ho : out.Wf o c) (hi : inp.length = i + 1) (hi2 : i + 1 < 2 ^ 64) (hb : bsk.Wf n k)
    (hf : convertBsk T .debug bsk = .ok f) (hk : ksk.Wf kn kn') (hbd : bits < 2 ^ 64) (a1 : i = k * bsk.polySize)
    (a2 : i = kn) (a3 : o = kn') (a4 : c = bits) (a5 : kn' = n) (a6 : bits ≤ w) (h2 : 2 ≤ bits) :
    extractBitsCall T .debug out inp f ksk bits 0 = .panic := by
  rw [extractBitsCall_eq T .debug out inp bsk f ksk bits 0 ho hi hi2 hb hf hk hbd,
    if_neg (not_not.2 a1), if_neg (not_not.2 a2), if_neg (not_not.2 a3), if_neg (not_not.2 a4),
      if_neg (not_not.2 a5), if_neg (by omega), C45_delta_zero_panics _ _ _ _ _ _ (by omega) _ _ (by omega)
        (by rw [ho.len, a4])]

/-! ### C109, circuit bootstrap and vertical packing -/

/-- The call up to its computation. -/
theorem verticalPackingCall_eq (m : Build) (out inp : LweList (BitVec w)) (bsk : BootstrapKey (BitVec w))
    (f : FourierBsk T) (luts : List (BitVec w)) (level b : Nat) (keys : PackingKeyList (BitVec w))
    {o co i ci n k n' k' ck : Nat} (ho : out.Wf o co) (hi : inp.Wf i ci) (hb : bsk.Wf n k)
    (hf : convertBsk T m bsk = .ok f) (hk : KeyListWf keys n' k' ck) (hm1 : keys.polySize * co < 2 ^ 64)
    (hm2 : b * level < 2 ^ 64) (hco : 0 < co) :
    verticalPackingCall T m out inp f luts level b keys =
      if k * bsk.polySize ≠ n' then .err (.generic .keysLweDimensionMismatch)
      else if i ≠ n then .err (.generic .inputLweDimensionMismatch)
      else if o ≠ k' * keys.polySize then .err (.generic .outputLweDimensionMismatch)
      else if luts.length % (keys.polySize * co) ≠ 0 then .err (.generic .malformedLookUpTables)
      else if luts.length / co < keys.polySize then .err (.generic .invalidSmallLookUpTableSize)
      else if level = 0 then .err (.generic .nullDecompositionBaseLog)
      else if b * level > w then .err (.generic .decompositionTooLarge)
      else match cbsVerticalPacking m
          (fun buf c => circuitBootstrap m
            (fun o c a => bootstrap (cmuxFft T bsk.polySize k bsk.baseLog bsk.levelCount) bsk.polySize
              (Nat.log2 bsk.polySize) o c a (bskGgsws T bsk.polySize k bsk.levelCount bsk.tensor))
            (fun key o c => privateKeyswitchOne keys.baseLog keys.levelCount keys.polySize k' key o c)
            bsk.polySize k keys.polySize k' b level (w - 1) buf
            (chunks ((n' + 1) * (keys.levelCount * ((k' + 1) * keys.polySize))) keys.tensor) c)
          (convert T keys.polySize)
          (fun luts o gs => verticalPacking m (fun g o c => externalProduct T keys.polySize k' b level o g c)
            keys.polySize k' luts o gs)
          bsk.polySize (level * ((k' + 1) * ((k' + 1) * keys.polySize))) (k * bsk.polySize) (o + 1) (i + 1) luts
          out.tensor inp.tensor with
        | some t => .ok ⟨t, out.lweSize⟩
        | none => .panic := by
  obtain ⟨hs, h1, h2, h3⟩ := convertBsk_dims T hb hf
  obtain ⟨ks, k1, k2⟩ := hk.keys m
  have hne : keys.polySize * co ≠ 0 := (Nat.mul_pos hk.poly hco).ne'
  unfold verticalPackingCall
  rw [h1, fftThen_ok hs, hi.dim m, hi.count m, ho.dim m, ho.count m, h2, hk.dims m]
  simp only [Checks.verticalPacking, checks_bad, checks_nil, bne_iff_ne, M.Bsk.outDim, h3, k1, k2,
    checks_val _ _ (mulUsize_ok m hm1), checks_val _ _ (mulUsize_ok m hm2), checks_val _ _ (modUsize_ok hne),
    checks_val _ _ (divUsize_ok hco.ne'), decide_eq_true_eq, beq_iff_eq, ho.size, hi.size]
  split_ifs <;> first | rfl | skip
  generalize cbsVerticalPacking m _ _ _ _ _ _ _ _ _ _ _ = r
  cases r <;> rfl

/-- C109, circuit bootstrap and vertical packing: with a converted bootstrap key, the first of these is reported: keys that do
not follow one another, an input that is not of the input dimension of the bootstrap key, an output that is not of the
output dimension of the keys, tables whose size is not a multiple of polynomial size times number of outputs, empty tables,
no level (reported as a null base log), a decomposition of more than `w` bits. -/
theorem C109_packing_errors (m : Build) (out inp : LweList (BitVec w)) (bsk : BootstrapKey (BitVec w))
    (f : FourierBsk T) (luts : List (BitVec w)) (level b : Nat) (keys : PackingKeyList (BitVec w))
    {o co i ci n k n' k' ck : Nat} (ho : out.Wf o co) (hi : inp.Wf i ci) (hb : bsk.Wf n k)
    (hf : convertBsk T m bsk = .ok f) (hk : KeyListWf keys n' k' ck) (hm1 : keys.polySize * co < 2 ^ 64)
    (hm2 : b * level < 2 ^ 64) (hco : 0 < co) :
    (k * bsk.polySize ≠ n' →
      verticalPackingCall T m out inp f luts level b keys = .err (.generic .keysLweDimensionMismatch)) ∧
    (k * bsk.polySize = n' → i ≠ n →
      verticalPackingCall T m out inp f luts level b keys = .err (.generic .inputLweDimensionMismatch)) ∧
    (k * bsk.polySize = n' → i = n → o ≠ k' * keys.polySize →
      verticalPackingCall T m out inp f luts level b keys = .err (.generic .outputLweDimensionMismatch)) ∧
    (k * bsk.polySize = n' → i = n → o = k' * keys.polySize → ¬keys.polySize * co ∣ luts.length →
      verticalPackingCall T m out inp f luts level b keys = .err (.generic .malformedLookUpTables)) ∧
    (k * bsk.polySize = n' → i = n → o = k' * keys.polySize → luts = [] →
      verticalPackingCall T m out inp f luts level b keys = .err (.generic .invalidSmallLookUpTableSize)) ∧
    (k * bsk.polySize = n' → i = n → o = k' * keys.polySize → keys.polySize * co ∣ luts.length → luts ≠ [] →
      (level = 0 →
        verticalPackingCall T m out inp f luts level b keys = .err (.generic .nullDecompositionBaseLog)) ∧
      (0 < level → w < b * level →
        verticalPackingCall T m out inp f luts level b keys = .err (.generic .decompositionTooLarge))) := by
  rw [verticalPackingCall_eq T m out inp bsk f luts level b keys ho hi hb hf hk hm1 hm2 hco]
  refine ⟨fun a1 => if_pos a1, fun a1 a2 => ?_, fun a1 a2 a3 => ?_, fun a1 a2 a3 a4 => ?_, fun a1 a2 a3 a4 => ?_,
    fun a1 a2 a3 a4 a5 => ?_⟩
  · rw [if_neg (not_not.2 a1), if_pos a2]
  · rw [if_neg (not_not.2 a1), if_neg (not_not.2 a2), if_pos a3]
  · rw [if_neg (not_not.2 a1), if_neg (not_not.2 a2), if_neg (not_not.2 a3),
      if_pos (fun h => a4 (Nat.dvd_of_mod_eq_zero h))]
  · rw [if_neg (not_not.2 a1), if_neg (not_not.2 a2), if_neg (not_not.2 a3), if_neg (by simp [a4]),
      if_pos (by rw [a4]; simpa using hk.poly)]
  · have h5 : ¬luts.length / co < keys.polySize := by
      obtain ⟨q, hq⟩ := a4
      have hq0 : q ≠ 0 := by rintro rfl; exact a5 (List.length_eq_zero_iff.1 (by simpa using hq))
      rw [hq, show keys.polySize * co * q = co * (keys.polySize * q) by ring, Nat.mul_div_cancel_left _ hco, not_lt]
      exact Nat.le_mul_of_pos_right _ (by omega)
    rw [if_neg (not_not.2 a1), if_neg (not_not.2 a2), if_neg (not_not.2 a3),
      if_neg (not_not.2 (Nat.mod_eq_zero_of_dvd a4)), if_neg h5]
    refine ⟨fun a6 => if_pos a6, fun a6 a7 => ?_⟩
    rw [if_neg (by omega), if_pos a7]

/-- C109, circuit bootstrap and vertical packing of 64-bit words, the accepted case: with keys that encrypt what they should,
ciphertexts of the bits `bits` at the top bit and tables of `2^bits` entries, the call gives ciphertexts of the entries of
the tables whose index is spelled by the bits, whatever the output held. The hypotheses that are not checked by the call are
`k' + 1` keys, the same polynomial size for the keys, a positive base log, a decomposition of less than 64 bits, at least
one input and tables of the right size. -/
theorem C109_packing_partial (m : Build) (hw : w = 64) (out inp : LweList (BitVec w)) (bsk : BootstrapKey (BitVec w))
    (f : FourierBsk T) (luts : List (BitVec w)) (level b : Nat) (keys : PackingKeyList (BitVec w))
    {o co i n k n' k' : Nat} (bits : List Bool) (ho : out.Wf o co) (hi : inp.Wf i bits.length) (hb : bsk.Wf n k)
    (hf : convertBsk T m bsk = .ok f) (hk : KeyListWf keys n' k' (k' + 1)) (hm1 : keys.polySize * co < 2 ^ 64)
    (hco : 0 < co) (a1 : k * bsk.polySize = n') (a2 : i = n) (a3 : o = k' * keys.polySize)
    (hsize : keys.polySize = bsk.polySize) (hv : ValidParams w b level) (hfit : b * level < w)
    (hbits : 0 < bits.length) (r : Nat) (hr : bits.length = r + Nat.log2 bsk.polySize) (hr64 : r < 64)
    (hluts : luts.length = co * 2 ^ bits.length)
    (D B D' B' S E Bk : Int) (s' s key : List (BitVec w)) (e : Nat → Int) (hlog : Nat.log2 bsk.polySize + 2 < w)
    (hT : T.Accurate bsk.polySize (bsk.levelCount * (k + 1)) D B) (hD : 2 ^ (bsk.baseLog - 1) ≤ D)
    (hvb : ValidParams w bsk.baseLog bsk.levelCount) (hB : 0 ≤ B) (hS0 : 0 ≤ S) (hE : 0 ≤ E)
    (hT' : T.Accurate bsk.polySize (level * (k' + 1)) D' B') (hD' : 2 ^ (b - 1) ≤ D')
    (hvk : ValidParams w keys.baseLog keys.levelCount) (hsl : s'.length = n) (hs' : Lwe.BinaryKey s')
    (hs : KeyFits bsk.polySize k s) (hSs : KeyBound S s) (hsb : Lwe.BinaryKey s)
    (hbsk : BskEnc bsk.polySize k bsk.baseLog bsk.levelCount s' s bsk.tensor E) (hkey : KeyFits bsk.polySize k' key)
    (hkb : Lwe.BinaryKey key) (hkk : k' = k)
    (hkeys : CbsKeys bsk.polySize k' keys.baseLog keys.levelCount s key keys.tensor Bk)
    (hp : ∀ i, i < bits.length → Lwe.phase s' (block (n + 1) inp.tensor i) =
      (((if bits.getD i false then 2 ^ (w - 1) else 0) + e i : Int) : BitVec w))
    (hQ : ∀ i, i < bits.length →
      |e i| + (1 + weight s') * 2 ^ (w - Nat.log2 bsk.polySize - 2) < 2 ^ (w - 2)) :
    ∃ res, verticalPackingCall T m out inp f luts level b keys = .ok res ∧ res.Wf o co ∧
      ∀ t, t < co → |(Lwe.phase key (block (o + 1) res.tensor t) -
          luts.getD (t * 2 ^ bits.length + indexOf bits) 0).toInt| ≤
        bits.length * epBound w bsk.polySize k' b level 1
          (cbsBound w s.length keys.baseLog keys.levelCount
            (n * epBound w bsk.polySize k bsk.baseLog bsk.levelCount S E B 1) 1 Bk) B' 1 := by
  obtain ⟨hsup, -⟩ := convertBsk_eq T hb hf
  have hN := hsup.log
  have e1 : 2 ^ bits.length = 2 ^ r * bsk.polySize := by rw [hr, pow_add, ← hN]
  have hl2 : luts.length = keys.polySize * co * 2 ^ r := by rw [hluts, e1, hsize]; ring
  have h2r : 0 < 2 ^ r := by positivity
  have hsn : s.length = n' := by rw [← a1]; exact hs
  rw [verticalPackingCall_eq T m out inp bsk f luts level b keys ho hi hb hf hk hm1 (by omega) hco,
    if_neg (not_not.2 a1), if_neg (not_not.2 a2), if_neg (not_not.2 a3),
    if_neg (by rw [hl2, Nat.mul_mod_right]; simp), if_neg (by
      rw [hl2, show keys.polySize * co * 2 ^ r = co * (keys.polySize * 2 ^ r) by ring, Nat.mul_div_cancel_left _ hco, not_lt]
      exact Nat.le_mul_of_pos_right _ h2r), if_neg hv.level.ne', if_neg (by omega)]
  subst hsl
  obtain ⟨res, r1, r2, r3⟩ := C51_pipeline m hw T T bsk.polySize k bsk.baseLog bsk.levelCount (Nat.log2 bsk.polySize) hN
    hlog D B S E hT hD hvb hB hS0 hE bsk.polySize (Nat.log2 bsk.polySize) k' b level keys.baseLog keys.levelCount hN
    (by omega) hv hfit D' B' hT' hD' hvk s' s key bsk.tensor keys.tensor hs' hs hSs hbsk hsb hkey (by rw [hkk]) 1 Bk le_rfl
    (binary_bound (by omega) hkb) hkeys bits r co hr hbits hr64 hco luts inp.tensor out.tensor (by rw [hluts, e1])
    (by rw [hi.len, a2]) (by rw [ho.len, a3, hsize]) e hp hQ
  rw [hsn] at r1
  rw [hsize, a2, show o + 1 = k' * bsk.polySize + 1 by rw [a3, hsize], r1]
  refine ⟨_, rfl, ⟨ho.size, ?_, ho.mem⟩, fun t ht => ?_⟩
  · simp only [r2, a3, hsize]
  · have := r3 t ht
    rw [e1, hr]
    push_cast
    exact this

theorem cbsVerticalPacking_none {G : Type} (cbs : List (BitVec w) → List (BitVec w) → Option (List (BitVec w)))
    (conv : List (BitVec w) → G)
    (vp : List (List (BitVec w)) → List (BitVec w) → List G → Option (List (BitVec w)))
    (N ggswSize pbsDim outSize inSize : Nat) (lut out inp : List (BitVec w))
    (h : (chunks inSize inp).length = 0 ∨ ∀ buf c, cbs buf c = none) :
    cbsVerticalPacking .debug cbs conv vp N ggswSize pbsDim outSize inSize lut out inp = none := by
  rw [cbsVerticalPacking]
  simp only
  split
  · rfl
  · rename_i hn
    rcases h with h | h
    · exact absurd ⟨trivial, Or.inl h⟩ hn
    · cases hc : chunks inSize inp with
      | nil => exact absurd ⟨trivial, Or.inl (by rw [hc]; rfl)⟩ hn
      | cons c cs => rw [cbsAll, h]

theorem cbsLevels_full (pbs ks : List (BitVec w) → List (BitVec w) → List (BitVec w) → Option (List (BitVec w)))
    (N k b delta : Nat) (keys : List (List (BitVec w))) (lweIn : List (BitVec w)) (L : Nat) (hL : w < b * L + 1) :
    ∀ (n level : Nat) (buf : List (BitVec w)) (outs : List (List (BitVec w))), level ≤ L → L < level + n →
      cbsLevels pbs ks N k b delta keys lweIn n level buf outs = none
  | 0, level, _, _, h1, h2 => by omega
  | n + 1, level, buf, outs, h1, h2 => by
    rw [cbsLevels]
    by_cases h : level = L
    · subst h
      rw [homomorphicShift, if_pos (Or.inr (Or.inr hL))]
    · cases homomorphicShift pbs N k level b delta buf lweIn with
      | none => rfl
      | some buf' =>
        simp only
        cases cbsKeyswitches ks buf' keys outs with
        | none => rfl
        | some p =>
          obtain ⟨rs, rest⟩ := p
          simp only
          rw [cbsLevels_full pbs ks N k b delta keys lweIn L hL n (level + 1) buf' rest (by omega) (by omega)]

/-- What `C109_packing_partial` leaves out, with the polynomial sizes equal: arguments that pass all the checks and on which
a debug build panics. These are a null base log, a decomposition of exactly `w` bits, an empty list of inputs, and a list
of keys that are not `k' + 1`. -/
theorem C109_packing_violated (out inp : LweList (BitVec w)) (bsk : BootstrapKey (BitVec w))
    (f : FourierBsk T) (luts : List (BitVec w)) (level b : Nat) (keys : PackingKeyList (BitVec w))
    {o co i ci n k n' k' ck : Nat} (ho : out.Wf o co) (hi : inp.Wf i ci) (hb : bsk.Wf n k)
    (hf : convertBsk T .debug bsk = .ok f) (hk : KeyListWf keys n' k' ck) (hm1 : keys.polySize * co < 2 ^ 64)
    (hw : w < 2 ^ 64) (hco : 0 < co) (a1 : k * bsk.polySize = n') (a2 : i = n) (a3 : o = k' * keys.polySize)
    (a4 : keys.polySize * co ∣ luts.length) (a5 : luts ≠ []) (a6 : 0 < level) (a7 : b * level ≤ w)
    (bad : b = 0 ∨ b * level = w ∨ ci = 0 ∨ ck ≠ k' + 1) :
    verticalPackingCall T .debug out inp f luts level b keys = .panic := by
  have h5 : ¬luts.length / co < keys.polySize := by
    obtain ⟨q, hq⟩ := a4
    have hq0 : q ≠ 0 := by rintro rfl; exact a5 (List.length_eq_zero_iff.1 (by simpa using hq))
    rw [hq, show keys.polySize * co * q = co * (keys.polySize * q) by ring, Nat.mul_div_cancel_left _ hco, not_lt]
    exact Nat.le_mul_of_pos_right _ (by omega)
  have hpos : 0 < (n' + 1) * (keys.levelCount * ((k' + 1) * keys.polySize)) :=
    Nat.mul_pos (by omega) (Nat.mul_pos hk.level (Nat.mul_pos (by omega) hk.poly))
  rw [verticalPackingCall_eq T .debug out inp bsk f luts level b keys ho hi hb hf hk hm1 (by omega) hco,
    if_neg (not_not.2 a1), if_neg (not_not.2 a2), if_neg (not_not.2 a3),
    if_neg (not_not.2 (Nat.mod_eq_zero_of_dvd a4)), if_neg h5, if_neg (by omega), if_neg (by omega),
    cbsVerticalPacking_none]
  rcases bad with h | h | h | h
  · right; intro buf c
    rw [circuitBootstrap, if_pos ⟨rfl, Or.inr (Or.inl h)⟩]
  · right; intro buf c
    rw [circuitBootstrap]
    split
    · rfl
    · rw [cbsLevels_full _ _ _ _ _ _ _ _ level (by omega) _ _ _ _ (by omega) (by omega)]; rfl
  · left
    rw [chunks_length _ (by omega) ci _ hi.len, h]
  · right; intro buf c
    rw [circuitBootstrap, if_pos ⟨rfl, Or.inr (Or.inr (by rw [chunks_length _ hpos ck _ hk.len]; exact h))⟩]

/-- An output without ciphertexts makes the checks themselves panic, in both builds. -/
theorem C109_no_output_violated (m : Build) (out inp : LweList (BitVec w)) (bsk : BootstrapKey (BitVec w))
    (f : FourierBsk T) (luts : List (BitVec w)) (level b : Nat) (keys : PackingKeyList (BitVec w))
    {o i ci n k n' k' ck : Nat} (ho : out.Wf o 0) (hi : inp.Wf i ci) (hb : bsk.Wf n k)
    (hf : convertBsk T m bsk = .ok f) (hk : KeyListWf keys n' k' ck)
    (a1 : k * bsk.polySize = n') (a2 : i = n) (a3 : o = k' * keys.polySize) :
    verticalPackingCall T m out inp f luts level b keys = .panic := by
  obtain ⟨hs, h1, h2, h3⟩ := convertBsk_dims T hb hf
  unfold verticalPackingCall
  rw [h1, fftThen_ok hs, hi.dim m, hi.count m, ho.dim m, ho.count m, h2, hk.dims m]
  simp only [Checks.verticalPacking, checks_bad, bne_iff_ne, ne_eq, M.Bsk.outDim, a1, a2, a3, not_true_eq_false,
    if_false, checks_val _ _ (mulUsize_ok m (show keys.polySize * 0 < 2 ^ 64 by simp)), Nat.mul_zero]
  rfl

theorem chunksAux_length_le {α : Type} (n : Nat) : ∀ (fuel : Nat) (l : List α), (chunksAux n fuel l).length ≤ fuel
  | 0, l => by simp [chunksAux]
  | fuel + 1, [] => by simp [chunksAux]
  | fuel + 1, a :: l => by
    have := chunksAux_length_le n fuel ((a :: l).drop n)
    simp only [chunksAux, List.length_cons]; omega

/-- With 32-bit words and fewer than `2^32` words of tables, the call never succeeds in a debug build, whatever its
arguments. -/
theorem C109_u32_violated (T : Transform 32) (out inp : LweList (BitVec 32)) (f : FourierBsk T) (luts : List (BitVec 32))
    (level b : Nat) (keys : PackingKeyList (BitVec 32)) (hl : luts.length < 2 ^ 32) :
    ∀ r, verticalPackingCall T .debug out inp f luts level b keys ≠ .ok r := by
  have main : ∀ (cbs : List (BitVec 32) → List (BitVec 32) → Option (List (BitVec 32))) (N k b l N' g p oS iS : Nat),
      cbsVerticalPacking .debug cbs (convert T N)
        (fun luts o gs => verticalPacking .debug (fun g o c => externalProduct T N k b l o g c) N k luts o gs)
        N' g p oS iS luts out.tensor inp.tensor = none := by
    intro cbs N k b l N' g p oS iS
    rw [cbsVerticalPacking]
    simp only
    split
    · rfl
    split
    · rfl
    split
    · rfl
    split
    · rfl
    rename_i _ gs _ h1 h2
    cases ho : chunks oS out.tensor with
    | nil => rw [ho] at h1; exact absurd rfl h1
    | cons x xs =>
      cases ht : chunks N' luts with
      | nil => rw [ht] at h2; simp at h2
      | cons y ys =>
        have hy : (chunks N' luts).length ≤ luts.length := chunksAux_length_le _ _ _
        rw [ht] at hy
        generalize (y :: ys).length / (x :: xs).length = small
        rw [chunks, List.length_cons, chunksAux, packAll, C44_u32_debug _ _ _ _ _ _ (by
          refine lt_of_le_of_lt ?_ hl
          rw [List.length_take]; omega)]
        rfl
  intro r
  unfold verticalPackingCall fftThen
  split
  · split
    · rename_i x hx
      split at hx
      · rw [main] at hx
        revert hx
        simp only [Option.map_none, afterChecks]
        cases Checks.verticalPacking .debug _ _ _ _ _ _ _ _ <;> simp
      · cases hx
    · simp
    · simp
  · simp

/-! ### C109, in a history -/

/-- C109, in a history (64-bit words): the bootstrap key from the small key `s` to the GLWE key `key`, the keyswitch key from
`key` to `s` and the circuit bootstrap keys from `key` to `key'`, generated at any points of a history. Any ciphertext that
decrypts under `key` to `msg 2^delta` with an error at most `E0`, given to the bit extraction and its result to the
vertical packing, gives ciphertexts that decrypt under `key'` to the entries `msg` (modulo their size) of the tables, with the
stated error. -/
theorem C109_history (hw : w = 64) (Tb : BitVec 128 → Nat → BitVec 8) (bld : Build) (cs : List Session.Call)
    (e e' : Session.Engine) (os : List Session.Out) (h : Session.run Tb bld cs e = some (os, e'))
    (ib iq ic : Nat) (cb cc : Session.EncCall w) (fb fq fc : Random.GaussianFn w) (s : List (BitVec w))
    (key key' : GlweKey (BitVec w)) (b level bq lq bk lk : Nat) (ctb ctq ctc : Session.Cts w)
    (hcb : cs[ib]? = some (.enc cb)) (hb : cb.bootstrapKey = some (fb, s, key, b, level)) (hsb : cb.Scheduled)
    (hob : os[ib]? = some (.cts ctb))
    (hcq : cs[iq]? = some (.enc (.ksk fq key.data s lq bq))) (hoq : os[iq]? = some (.cts ctq))
    (hcc : cs[ic]? = some (.enc cc)) (hc : cc.circuitKeys = some (fc, key.data, key', bk, lk)) (hsc : cc.Scheduled)
    (hoc : os[ic]? = some (.cts ctc))
    (E : Int) (hE : 0 ≤ E) (hfb : NoiseBound fb E) (Eq : Nat) (hfq : NoiseBound fq Eq) (Ec : Int) (hfc : NoiseBound fc Ec)
    (hk : Session.KeyOk key) (hk' : Session.KeyOk key') (hpp : key'.polySize = key.polySize) (hdd : key'.dim = key.dim)
    (hs : Lwe.BinaryKey s) (hkb : Lwe.BinaryKey key.data) (hkb' : Lwe.BinaryKey key'.data)
    (hv : ValidParams w b level) (hvq : ValidParams w bq lq) (hvk : ValidParams w bk lk)
    (hsup : Supported key.polySize) (hlog : Nat.log2 key.polySize + 2 < w)
    (bc lc : Nat) (hvc : ValidParams w bc lc) (hfit : bc * lc < w)
    (D B D' B' : Int) (hB : 0 ≤ B) (hT : T.Accurate key.polySize (level * (key.dim + 1)) D B) (hD : 2 ^ (b - 1) ≤ D)
    (hT' : T.Accurate key.polySize (lc * (key.dim + 1)) D' B') (hD' : 2 ^ (bc - 1) ≤ D')
    (hmem : level * ((key.dim + 1) * ((key.dim + 1) * key.polySize)) < 2 ^ 64) (hmq : lq * (s.length + 1) < 2 ^ 64)
    (hmk : (key.data.length + 1) * (lk * ((key.dim + 1) * key.polySize)) < 2 ^ 64)
    (delta r nout msg : Nat) (hdelta : 0 < delta) (hfits : delta + (r + Nat.log2 key.polySize) ≤ w) (hno : 0 < nout)
    (hmo : key.polySize * nout < 2 ^ 64) (mid out : LweList (BitVec w)) (inp luts : List (BitVec w))
    (hmid : mid.Wf s.length (r + Nat.log2 key.polySize)) (hout : out.Wf key.data.length nout)
    (hluts : luts.length = nout * 2 ^ (r + Nat.log2 key.polySize)) (hin : Lwe.Fits key.data inp)
    (E0 e0 : Int) (he : |e0| ≤ E0)
    (hdec : Session.decryptLwe bld key.data inp = .ok ((msg * 2 ^ delta + e0 : Int) : BitVec w)) (K P : Int)
    (hK : K = key.data.length * 2 ^ (w - bq * lq - 1) + key.data.length * lq * 2 ^ (bq - 1) * Eq)
    (hP : P = s.length * epBound w key.polySize key.dim b level 1 E B 1)
    (hQ : ∀ i, i < r + Nat.log2 key.polySize → (E0 + i * P) * 2 ^ (w - delta - i - 1) + K +
      (1 + weight s) * 2 ^ (w - Nat.log2 key.polySize - 2) < 2 ^ (w - 2)) :
    ∃ bsk, convertBsk T bld ⟨ctb.data, key.polySize, key.dim + 1, level, b⟩ = .ok bsk ∧
    ∃ bits, extractBitsCall T bld mid inp bsk ⟨ctq.data, bq, lq, s.length + 1⟩ (r + Nat.log2 key.polySize) delta = .ok bits ∧
    ∃ res, verticalPackingCall T bld out bits bsk luts lc bc
        ⟨ctc.data, bk, lk, key.data.length + 1, key.dim + 1, key.polySize⟩ = .ok res ∧
      ∀ t, t < nout → ∃ z, Session.decryptLwe bld key'.data (block (key.data.length + 1) res.tensor t) = .ok z ∧
        |(z - luts.getD (t * 2 ^ (r + Nat.log2 key.polySize) + msg % 2 ^ (r + Nat.log2 key.polySize)) 0).toInt| ≤
          (r + Nat.log2 key.polySize : Nat) * epBound w key.polySize key.dim bc lc 1
            (cbsBound w key.data.length bk lk P 1 Ec) B' 1 := by
  have hbsk := Session.C106_bootstrap_key Tb bld cs e e' os h ib cb fb s key b level ctb hcb hb hsb hob E hfb hk
  have hcbs := Session.C106_circuit_keys Tb bld cs e e' os h ic cc fc key.data key' bk lk ctc hcc hc hsc hoc Ec hfc hk'
  rw [hpp, hdd] at hcbs
  obtain ⟨-, g, g', hq⟩ := Session.history_enc Tb bld h hcq hoq
  obtain ⟨es, q1, q2, q3⟩ := Lwe.fillKsk_spec hvq.level (by simp) hq
  have hql := Lwe.rep_length _ _ _ _ _ q1
  have hwf : (⟨ctb.data, key.polySize, key.dim + 1, level, b⟩ : BootstrapKey (BitVec w)).Wf s.length key.dim :=
    ⟨hv.level, hk.1, rfl, hbsk.1, hmem⟩
  have hqwf : (⟨ctq.data, bq, lq, s.length + 1⟩ : KeyswitchKey (BitVec w)).Wf key.data.length s.length :=
    ⟨hvq.level, rfl, q2, hmq⟩
  have hkf : KeyFits key.polySize key.dim key.data := Session.key_fits hk.2
  have hkf' : KeyFits key.polySize key.dim key'.data := by
    have := Session.key_fits hk'.2
    rwa [hpp, hdd] at this
  have hkl : key.data.length = key.dim * key.polySize := hkf
  have hcwf : KeyListWf (⟨ctc.data, bk, lk, key.data.length + 1, key.dim + 1, key.polySize⟩ :
      PackingKeyList (BitVec w)) key.data.length key.dim (key.dim + 1) := ⟨hvk.level, hk.1, rfl, rfl, hcbs.1, hmk⟩
  have hkl1 : key.data.length + 1 < 2 ^ 64 :=
    lt_of_mul_lt_l (Nat.mul_pos hvk.level (Nat.mul_pos (by omega) hk.1)) hmk
  have hlogp : 0 < Nat.log2 key.polySize := by
    obtain ⟨x, hx, hx2⟩ := hsup
    rw [hx2, Nat.log2_two_pow]; omega
  obtain ⟨bsk, b1, -, -, -⟩ := (C108_convert_bootstrap_key T bld _ hwf).2 hsup
  rw [Session.decryptLwe_phase bld (Or.inr hkb) hin] at hdec
  injection hdec with hdec
  have hS : KeyBound 1 key.data := binary_bound (by omega) hkb
  obtain ⟨bits, x1, x2, x3⟩ := (C109_extract_bits_partial T bld mid inp ⟨ctb.data, key.polySize, key.dim + 1, level, b⟩ bsk
    ⟨ctq.data, bq, lq, s.length + 1⟩ (r + Nat.log2 key.polySize) delta hmid hin hkl1 hwf b1 hqwf
    (by omega)).2.2.2.2.2.2 hkl rfl rfl rfl rfl (by omega) (Or.inl hdelta) D B 1 E key.data s
    (fun i j => (es.getD (i * lq + j) 0).toInt) Eq msg E0 e0 K P hlog hT hD hv hB (by norm_num) hE hvq hkf hS hkb rfl hs
    hbsk (fun i hi j hj => by
      rw [q3 i hi j hj]; congr 1
      exact (BitVec.ofInt_toInt).symm)
    (fun i hi j hj => by
      have hlt : i * lq + j < es.length := by
        rw [hql]
        calc i * lq + j < i * lq + lq := by simp only at hj; omega
          _ = (i + 1) * lq := by ring
          _ ≤ key.data.length * lq := Nat.mul_le_mul_right _ hi
      refine Pbs.rep_forall (fun x : BitVec w => |x.toInt| ≤ (Eq : Int)) (Random.randomNoise fq)
        (fun g g' a h => Circuit.randomNoise_bound fq Eq hfq g g' a h) _ _ _ _ q1 _ ?_
      rw [List.getD_eq_getElem?_getD, List.getElem?_eq_getElem hlt]
      exact List.getElem_mem _)
    he hdec hK hP (fun i hi => hQ i (by omega))
  refine ⟨bsk, b1, bits, x1, ?_⟩
  generalize hnb : r + Nat.log2 key.polySize = nb at *
  have hex : ∀ j, ∃ f : Int, j < nb →
      |f| ≤ (E0 + ((nb - 1 - j : Nat) : Int) * P) * 2 ^ (w - delta - (nb - 1 - j) - 1) + K ∧
      Lwe.phase s (block (s.length + 1) bits.tensor j) =
        (((if msg.testBit (nb - 1 - j) then 2 ^ (w - 1) else 0) + f : Int) : BitVec w) := by
    intro j
    by_cases hj : j < nb
    · obtain ⟨f, f1, f2⟩ := x3 (nb - 1 - j) (by omega)
      rw [show nb - 1 - (nb - 1 - j) = j by omega] at f2
      exact ⟨f, fun _ => ⟨f1, f2⟩⟩
    · exact ⟨0, fun h => absurd h hj⟩
  choose f hf using hex
  have hbl := bitsOf_length nb msg
  obtain ⟨res, r1, r2, r3⟩ := C109_packing_partial T bld hw out bits ⟨ctb.data, key.polySize, key.dim + 1, level, b⟩ bsk luts
    lc bc ⟨ctc.data, bk, lk, key.data.length + 1, key.dim + 1, key.polySize⟩ (bitsOf nb msg) hout (by rw [hbl]; exact x2) hwf
    b1 hcwf hmo hno hkl.symm rfl hkl rfl hvc hfit (by omega) r (by rw [hbl, hnb]) (by omega) (by rw [hbl]; exact hluts) D B D'
    B' 1 E Ec s key.data key'.data f hlog hT hD hv hB (by norm_num) hE hT' hD' hvk rfl hs hkf hS hkb hbsk hkf' hkb' rfl hcbs
    (fun i hi => by
      rw [hbl] at hi
      rw [bitsOf_getD _ _ _ hi, (hf i hi).2])
    (fun i hi => by
      rw [hbl] at hi
      have h1 := (hf i hi).1
      have h2 := hQ (nb - 1 - i) (by omega)
      simp only
      linarith)
  refine ⟨res, r1, fun t ht => ?_⟩
  have h3 := r3 t ht
  rw [indexOf_bitsOf, hbl] at h3
  refine ⟨_, Session.decryptLwe_phase bld (Or.inr hkb') ?_, ?_⟩
  · rw [Lwe.Fits, block_len _ nout t _ r2.len ht, hkf', hkl]
  · rw [hP]; exact h3

end Verif.Wop
