import Verif.Pbs.Examples
import Verif.Capi.Lemmas
import Verif.Lwe.Props2
import Verif.Pbs.Props2
/-
C68: the C functions compute on memory what they are documented to compute, and write nowhere else.
-/
namespace Verif.Capi

open Verif Verif.Lwe Verif.Decomp
open Verif.Csprng (Build)

variable {C : Type}

/-! ### Linear operations -/

/-- The sum: the output range decrypts to the sum of the inputs, which may be the same ciphertext. Nothing else is
written. -/
theorem C68_add (m : List (BitVec 64)) (ctOut ctIn0 ctIn1 : Nat) (s a b : List (BitVec 64)) (ha : At m ctIn0 a)
    (hb : At m ctIn1 b) (fa : Lwe.Fits s a) (fb : Lwe.Fits s b) (ho : ctOut + (s.length + 1) ≤ m.length)
    (h0 : Apart ctOut (s.length + 1) ctIn0 (s.length + 1)) (h1 : Apart ctOut (s.length + 1) ctIn1 (s.length + 1)) :
    ∃ m' r, addLwe m ctOut ctIn0 ctIn1 s.length = .done m' ∧ Wrote m ctOut r m' ∧ Lwe.Fits s r ∧
      phase s r = phase s a + phase s b := by
  obtain ⟨o, ho, hol⟩ := at_of_range ho
  have e : zipUpdate (fun (_ : BitVec 64) c => c.1 + c.2) o (a.zip b) = zipUpdate (fun x y => x + y) a b := by
    rw [zipUpdate_const (fun c : BitVec 64 × BitVec 64 => c.1 + c.2) o (a.zip b) (by rw [List.length_zip, hol, fa, fb]; simp),
      zip_map_add a b (by rw [fa, fb])]
  refine ⟨store m ctOut (zipUpdate (fun x y => x + y) a b), _, ?_, wrote_store ho (by rw [zipUpdate_length, hol, fa]),
    fits_zipUpdate _ fa, phase_add fa fb⟩
  simp only [addLwe, noAlias_apart h0, noAlias_apart h1, slice_at ho hol, slice_at ha fa, slice_at hb fb, bind_done, pure_eq, e]

/-- The product by a cleartext. -/
theorem C68_mul_cleartext (m : List (BitVec 64)) (ctOut ctIn : Nat) (x : BitVec 64) (s a : List (BitVec 64))
    (ha : At m ctIn a) (fa : Lwe.Fits s a) (ho : ctOut + (s.length + 1) ≤ m.length)
    (h0 : Apart ctOut (s.length + 1) ctIn (s.length + 1)) :
    ∃ m' r, mulCleartextLwe m ctOut ctIn x s.length = .done m' ∧ Wrote m ctOut r m' ∧ Lwe.Fits s r ∧
      phase s r = phase s a * x := by
  obtain ⟨o, ho, hol⟩ := at_of_range ho
  refine ⟨store m ctOut (a.map fun c => c * x), _, ?_, wrote_store ho (by rw [List.length_map, hol, fa]),
    by simpa [Lwe.Fits] using fa, phase_map x⟩
  simp only [mulCleartextLwe, noAlias_apart h0, slice_at ho hol, slice_at ha fa, bind_done, pure_eq,
    zipUpdate_const (fun c : BitVec 64 => c * x) o a (by rw [hol, fa])]

/-- The opposite. -/
theorem C68_negate (m : List (BitVec 64)) (ctOut ctIn : Nat) (s a : List (BitVec 64))
    (ha : At m ctIn a) (fa : Lwe.Fits s a) (ho : ctOut + (s.length + 1) ≤ m.length)
    (h0 : Apart ctOut (s.length + 1) ctIn (s.length + 1)) :
    ∃ m' r, negateLwe m ctOut ctIn s.length = .done m' ∧ Wrote m ctOut r m' ∧ Lwe.Fits s r ∧ phase s r = - phase s a := by
  obtain ⟨o, ho, hol⟩ := at_of_range ho
  refine ⟨store m ctOut (a.map fun c => -c), _, ?_, wrote_store ho (by rw [List.length_map, hol, fa]),
    by simpa [Lwe.Fits] using fa, phase_neg⟩
  simp only [negateLwe, noAlias_apart h0, slice_at ho hol, slice_at ha fa, bind_done, pure_eq,
    zipUpdate_const (fun c : BitVec 64 => -c) o a (by rw [hol, fa])]

/-- The addition of a plaintext adds it to the mask as well: the phase changes by `p (1 - Σ s_i)`, which is right exactly
when `p Σ s_i = 0`. -/
theorem C68_add_plaintext_partial (m : List (BitVec 64)) (ctOut ctIn : Nat) (p : BitVec 64) (s a : List (BitVec 64))
    (ha : At m ctIn a) (fa : Lwe.Fits s a) (ho : ctOut + (s.length + 1) ≤ m.length)
    (h0 : Apart ctOut (s.length + 1) ctIn (s.length + 1)) :
    ∃ m' r, addPlaintextLwe m ctOut ctIn p s.length = .done m' ∧ Wrote m ctOut r m' ∧ Lwe.Fits s r ∧
      phase s r = phase s a + p - p * s.sum ∧ (phase s r = phase s a + p ↔ p * s.sum = 0) := by
  obtain ⟨o, ho, hol⟩ := at_of_range ho
  have hp := phase_add_all p s a fa
  refine ⟨store m ctOut (a.map fun c => c + p), _, ?_, wrote_store ho (by rw [List.length_map, hol, fa]),
    by simpa [Lwe.Fits] using fa, hp, ?_⟩
  · simp only [addPlaintextLwe, noAlias_apart h0, slice_at ho hol, slice_at ha fa, bind_done, pure_eq,
      zipUpdate_const (fun c : BitVec 64 => c + p) o a (by rw [hol, fa])]
  · rw [hp, sub_eq_self]

/-- The full claim fails: with the key `[1]`, the encryption `[7, 9]` of `2` and the plaintext `5` the output decrypts to
`2` instead of `7`. -/
theorem C68_add_plaintext_violated :
    addPlaintextLwe [7#64, 9#64, 0#64, 0#64] 2 0 5#64 1 = .done [7#64, 9#64, 12#64, 14#64] ∧
    decryptLwe [1#64] [7#64, 9#64] = some 2#64 ∧ decryptLwe [1#64] [12#64, 14#64] = some 2#64 := by
  decide +kernel

/-! ### Keyswitch -/

/-- The keyswitch: with a key of which the rows encrypt `s_i 2^(64 - b (k + 1))` under `s'` with errors at most `B`, the
output range decrypts under `s'` to the phase of the input up to the error of C16. Nothing else is written. -/
theorem C68_keyswitch (bld : Build) (m : List (BitVec 64)) (ctOut ctIn kskPtr b l : Nat) (hv : ValidParams 64 b l)
    (s s' ksk a : List (BitVec 64)) (e : Nat → Nat → Int) (B : Nat)
    (hk : At m kskPtr ksk) (hkl : ksk.length = l * (s'.length + 1) * s.length) (hsz : l * (s'.length + 1) < 2 ^ 64)
    (hrow : ∀ i, i < s.length → ∀ k, k < l → phase s' (block (s'.length + 1) ksk (i * l + k)) =
      s.getD i 0 * ((2 ^ (64 - b * (k + 1)) : Nat) : BitVec 64) + ((e i k : Int) : BitVec 64))
    (he : ∀ i, i < s.length → ∀ k, k < l → |e i k| ≤ B) (hs : BinaryKey s) (ha : At m ctIn a) (fa : Lwe.Fits s a)
    (ho : ctOut + (s'.length + 1) ≤ m.length) (h0 : Apart ctOut (s'.length + 1) ctIn (s.length + 1))
    (h1 : Apart ctOut (s'.length + 1) kskPtr (l * (s'.length + 1) * s.length)) :
    ∃ m' r, keyswitchLwe bld m ctOut ctIn kskPtr l b s.length s'.length = .done m' ∧ Wrote m ctOut r m' ∧ Lwe.Fits s' r ∧
      ∃ E : Int, phase s' r = phase s a + (E : BitVec 64) ∧
        |E| ≤ s.length * 2 ^ (64 - b * l - 1) + s.length * l * 2 ^ (b - 1) * B := by
  obtain ⟨o, ho, hol⟩ := at_of_range ho
  have hkl' : ksk.length = s.length * (l * (s'.length + 1)) := by rw [hkl]; ring
  obtain ⟨r, E, r1, r2, r3, r4⟩ := C16_error_bound b l hv s s' ksk o a e B hkl' hrow he hs hol fa
  obtain ⟨x, x1, x2, x3, x4, x5, x6, -⟩ := Entity.C57_keyswitch_key bld ksk b l s'.length s.length hv.level hsz hkl'
  have x7 : x.lweSize = s'.length + 1 := by
    simp only [Entity.KeyswitchKey.fromContainer, Option.bind_eq_bind] at x1
    obtain ⟨_, _, h⟩ := Option.bind_eq_some_iff.1 x1
    rw [← Option.some.inj h]
  refine ⟨store m ctOut r, r, ?_, wrote_store ho (by rw [hol, r2]), r2, E, r3, r4⟩
  have hd1 : a.length - 1 = s.length := by rw [fa]; rfl
  have hd2 : o.length - 1 = s'.length := by rw [hol]; rfl
  cases bld <;>
  simp [keyswitchLwe, noAlias_apart h0, noAlias_apart h1, slice_at ho hol, slice_at ha fa, slice_at hk hkl, x1, x2, x3, x4, x5,
    x6, x7, orAbort, hd1, hd2, assert, r1]

/-! ### Bootstrap -/

/-- The conversion of a bootstrap key followed by a bootstrap. The complex numbers of the converted key are written in a
range of half as many elements as the key has words; then the output range decrypts to `y` if the accumulator contains `y` at
every position near the phase of the input, up to the error of C31. Nothing else is written. `T` is the transform (C63), the
complex numbers `toWords` of a transformed polynomial are read back by `ofWords`. -/
theorem C68_bootstrap (bld : Build) (T : Pbs.Transform 64) (toWords : T.E → List C) (ofWords : List C → T.E)
    (N k b l logN : Nat) (hNN : N = 2 ^ logN) (hlog0 : 0 < logN) (hlog : logN + 2 < 64) (D B S E : Int)
    (hT : T.Accurate N (l * (k + 1)) D B) (hD : 2 ^ (b - 1) ≤ D) (h : ValidParams 64 b l)
    (hB : 0 ≤ B) (hS0 : 0 ≤ S) (hE : 0 ≤ E) (lweKey key bsk acc v lweIn : List (BitVec 64))
    (hk : Glwe.KeyFits N k key) (hS : Pbs.KeyBound S key) (hs : BinaryKey lweKey)
    (hbsk : Pbs.BskEnc N k b l lweKey key bsk E) (hacc : Glwe.CtFits N k acc) (hv : v.length = N)
    (hphase : Glwe.glwePhase N k key acc = Poly.toRq N v) (hin : Lwe.Fits lweKey lweIn) (y : BitVec 64)
    (hy : ∀ d, d < 2 * N → |((d * 2 ^ (64 - logN - 1) : Nat) - phase lweKey lweIn : BitVec 64).toInt| ≤
        (1 + Pbs.weight lweKey) * 2 ^ (64 - logN - 2) → Poly.ext N v d = y)
    (hw : ∀ p, p.length = N → (toWords (T.fwdGgsw p)).length = N / 2 ∧ ofWords (toWords (T.fwdGgsw p)) = T.fwdGgsw p)
    (hg : (k + 1) * (k + 1) < 2 ^ 64) (hl : l < 2 ^ 64)
    (m : List (BitVec 64)) (fm : List C) (bskPtr fouPtr ctOut ctIn accPtr : Nat)
    (mb : At m bskPtr bsk) (mf : fouPtr + bsk.length / 2 ≤ fm.length) (mi : At m ctIn lweIn) (ma : At m accPtr acc)
    (mo : ctOut + (k * N + 1) ≤ m.length) (h0 : Apart ctOut (k * N + 1) ctIn (lweKey.length + 1))
    (h1 : Apart ctOut (k * N + 1) accPtr (N * (k + 1))) :
    ∃ fm' fw m' r,
      convertBsk bld T toWords m fm bskPtr fouPtr l b k N lweKey.length = .done fm' ∧
      Wrote fm fouPtr fw fm' ∧ fw.length = bsk.length / 2 ∧
      bootstrapLwe T ofWords m fm' ctOut ctIn accPtr fouPtr l b k N lweKey.length = .done m' ∧
      Wrote m ctOut r m' ∧ Lwe.Fits key r ∧
      |(phase key r - y).toInt| ≤ lweKey.length * Pbs.epBound 64 N k b l S E B 1 := by
  obtain ⟨o, ho, hol⟩ := at_of_range mo
  obtain ⟨r, r1, -, r2, r3⟩ := Pbs.C31_lookup T N k b l logN hNN hlog D B S E hT hD h hB hS0 hE lweKey key bsk acc v lweIn o
    hk hS hs hbsk hacc hv hphase hin hol y hy
  have hN2 : N = 2 * 2 ^ (logN - 1) := by rw [hNN, ← pow_succ', Nat.sub_add_cancel hlog0]
  have hNp : 0 < N := by rw [hNN]; positivity
  have hNh : N / 2 = 2 ^ (logN - 1) := by rw [hN2]; simp
  have hN0 : 0 < N / 2 := by rw [hNh]; positivity
  have hNe : N % 2 = 0 := by omega
  have hNlt : N < 2 ^ 64 := by rw [hNN]; exact Nat.pow_lt_pow_right (by omega) (by omega)
  have hbl := hbsk.1
  have hbl1 : bsk.length = lweKey.length * l * (k + 1) * (k + 1) * N := by rw [hbl]; ring
  have hbl2 : bsk.length = (lweKey.length * l * (k + 1) * (k + 1)) * N := hbl1
  have hhalf : lweKey.length * l * (k + 1) * (k + 1) * N / 2 = lweKey.length * l * (k + 1) * (k + 1) * (N / 2) := by
    rw [Nat.mul_div_assoc _ (Nat.dvd_of_mod_eq_zero hNe)]
  have hnew : lweKey.length * l * (k + 1) * (k + 1) * (N / 2) = lweKey.length * N / 2 * l * (k + 1) * (k + 1) := by
    rw [Nat.mul_div_assoc _ (Nat.dvd_of_mod_eq_zero hNe)]; ring
  have hl0 : 0 < l := h.level
  have hfc : Entity.BootstrapKey.fromContainer bld bsk (k + 1) N l b = some ⟨bsk, N, k + 1, l, b⟩ := by
    have := Entity.ck3 bld (len := bsk.length)
      (Entity.fits1 (lweKey.length * (k + 1) * (k + 1) * N) hl0 hl (by rw [hbl1]; ring))
      (Entity.fits2 (lweKey.length * l * N) (a := k + 1) (b := k + 1) (by omega) (by omega) hg (by rw [hbl1]; ring))
      (Entity.fits1 _ hNp hNlt hbl2)
    simp only [Entity.BootstrapKey.fromContainer, this, Option.bind_eq_bind, Option.bind_some]
  obtain ⟨rb1, rb2⟩ := read_back toWords ofWords (N / 2) hN0 (Pbs.convert T N bsk) (by
    intro e he
    obtain ⟨c, hc, rfl⟩ := List.mem_map.1 he
    rw [chunks_eq N hNp _ _ hbl2] at hc
    obtain ⟨i, hi, rfl⟩ := List.mem_map.1 hc
    exact hw _ (block_length N bsk i (by
      rw [hbl2]; exact Nat.mul_le_mul_right _ (List.mem_range.1 hi))))
  have hcl : (Pbs.convert T N bsk).length = lweKey.length * l * (k + 1) * (k + 1) := by
    rw [Pbs.convert, List.length_map, chunks_length N hNp _ _ hbl2]
  rw [hcl] at rb1
  obtain ⟨f, hf, hfl⟩ := at_of_range mf
  have hfl' : f.length = lweKey.length * l * (k + 1) * (k + 1) * (N / 2) := by rw [hfl, hbl1, hhalf]
  have hwr : Wrote fm fouPtr _ (store fm fouPtr ((Pbs.convert T N bsk).flatMap toWords)) :=
    wrote_store hf (by rw [rb1, hfl'])
  refine ⟨_, _, _, r, ?_, hwr, by rw [rb1, hbl1, hhalf], ?_, wrote_store ho (by rw [r2, hol, hk]), r2, r3⟩
  · simp only [convertBsk, hhalf, slice_at mb hbl1, bind_done, hfc, orAbort, slice_at hf hfl', fourierKeyNew, pure_eq,
      assert_true hNe, assert_true (hfl'.trans hnew)]
  · have hlg : N.log2 = logN := by rw [hNN, Nat.log2_two_pow]
    have e : (chunks (l * ((k + 1) * (k + 1))) ((chunks (N / 2) ((Pbs.convert T N bsk).flatMap toWords)).map ofWords)) =
        Pbs.bskGgsws T N k l bsk := by rw [rb2, Pbs.bskGgsws]
    simp only [bootstrapLwe, hhalf, noAlias_apart h0, noAlias_apart h1, bind_done, slice_at (wrote_at hwr) rb1, fourierKeyNew,
      assert_true hNe, assert_true (rb1.trans hnew), slice_at mi hin, slice_at ho hol,
      slice_at ma (hacc.trans (Nat.mul_comm _ _)), hlg, e, r1, orAbort, pure_eq]

/-- The complex numbers of the example below: pairs of coefficients. -/
def pairs : List (BitVec 64) → List (BitVec 64 × BitVec 64)
  | a :: b :: l => (a, b) :: pairs l
  | _ => []

/-- A conversion and a bootstrap in one memory, with the exact transform: `N = 4`, dimension 1, two levels, the LWE key
`[1, 0, 1]`, an input of phase a quarter of the torus (position 2 of the table `[12, 20, 28, 40] * 2^56`). -/
example (bld : Build) : ∃ fm',
    convertBsk bld (Pbs.exactTransform 64 4) pairs
      ((([1, 0, 1] : List (BitVec 64)).map (Pbs.gadgetGgsw 4 1 3 2)).flatten ++ [32#64 <<< 56, 96#64 <<< 56, 160#64 <<< 56, 0#64] ++
        [0#64, 0, 0, 0, 12#64 <<< 56, 20#64 <<< 56, 28#64 <<< 56, 40#64 <<< 56] ++ List.replicate 5 7#64) (List.replicate 50 (1, 1)) 0 2 2 3 1 4 3 = .done fm' ∧
    fm'.take 2 = [(1, 1), (1, 1)] ∧
    bootstrapLwe (Pbs.exactTransform 64 4) (fun w => w.flatMap fun c => [c.1, c.2])
      ((([1, 0, 1] : List (BitVec 64)).map (Pbs.gadgetGgsw 4 1 3 2)).flatten ++ [32#64 <<< 56, 96#64 <<< 56, 160#64 <<< 56, 0#64] ++
        [0#64, 0, 0, 0, 12#64 <<< 56, 20#64 <<< 56, 28#64 <<< 56, 40#64 <<< 56] ++ List.replicate 5 7#64) fm' 108 96 100 2 2 3 1 4 3 =
      .done ((([1, 0, 1] : List (BitVec 64)).map (Pbs.gadgetGgsw 4 1 3 2)).flatten ++
        [32#64 <<< 56, 96#64 <<< 56, 160#64 <<< 56, 0#64] ++ [0#64, 0, 0, 0, 12#64 <<< 56, 20#64 <<< 56, 28#64 <<< 56, 40#64 <<< 56] ++ [0#64, 0, 0, 0, 28#64 <<< 56]) := by
  refine ⟨List.replicate 2 (1, 1) ++ pairs ((([1, 0, 1] : List (BitVec 64)).map (Pbs.gadgetGgsw 4 1 3 2)).flatten), ?_, rfl, ?_⟩
  · cases bld <;> decide +kernel
  · decide +kernel

/-- The hypotheses of the linear operations can be met, with inputs that are the same ciphertext. -/
example : ∃ m', addLwe [7#64, 9#64, 0#64, 0#64] 2 0 0 1 = .done m' ∧ At m' 2 [14#64, 18#64] :=
  ⟨[7#64, 9#64, 14#64, 18#64], by decide +kernel, [7#64, 9#64], [], by decide, rfl⟩

/-- A range that is not in memory, or an output over an input, is undefined behaviour. -/
example : negateLwe [7#64, 9#64, 0#64, 0#64] 2 0 2 = .undef ∧ negateLwe [7#64, 9#64, 0#64, 0#64] 1 0 1 = .undef := by
  decide +kernel

/-- A keyswitch from dimension 1 to dimension 1, with a key of two levels without mask, in both builds. -/
example : ∀ bld : Build, keyswitchLwe bld
    [0x1200000000000000#64, 0x4200000000000001#64, 0#64, 0x1000000000000000#64, 0#64, 0x100000000000000#64, 0#64, 0#64] 6 0 2 2 4 1 1 =
    .done [0x1200000000000000#64, 0x4200000000000001#64, 0#64, 0x1000000000000000#64, 0#64, 0x100000000000000#64, 0#64,
      0x3000000000000001#64] := by
  intro bld; cases bld <;> decide +kernel

/-! ### Extraction of bits -/

/-- The full claim fails for the extraction of bits: the assertion on the number of bits is the wrong way round, so that the
function panics whenever the bits fit in the 64-bit torus, whatever the memory and the other arguments. -/
theorem C68_extract_bit_violated (bld : Build) (T : Pbs.Transform 64) (ofWords : List C → T.E) (m : List (BitVec 64))
    (fm : List C) (ctVecOut ctIn fourierBsk ksk ctOutDim ctOutCount ctInDim numberOfBits deltaLog bskLevel bskBaseLog
      bskGlweDim bskPolySize bskInDim kskLevel kskBaseLog kskInDim kskOutDim : Nat) (h : numberOfBits + deltaLog ≤ 64) :
    extractBit bld T ofWords m fm ctVecOut ctIn fourierBsk ksk ctOutDim ctOutCount ctInDim numberOfBits deltaLog bskLevel
      bskBaseLog bskGlweDim bskPolySize bskInDim kskLevel kskBaseLog kskInDim kskOutDim = .abort := by
  have h6 : assert (64 < numberOfBits + deltaLog) = .abort := assert_false (by omega)
  have hstep : ∀ {p : Prop} [Decidable p] (f : Unit → Call (List (BitVec 64))), f () = .abort →
      (assert p >>= f) = .abort := by
    intro p _ f hf
    by_cases hp : p
    · rw [assert_true hp]; exact hf
    · rw [assert_false hp]; rfl
  unfold extractBit
  refine hstep _ (hstep _ (hstep _ (hstep _ (hstep _ ?_))))
  rw [h6]; rfl

/-- In a debug build no call at all returns: those that the assertion lets through ask for bits beyond the torus. -/
theorem C68_extract_bit_never (T : Pbs.Transform 64) (ofWords : List C → T.E) (m m' : List (BitVec 64))
    (fm : List C) (ctVecOut ctIn fourierBsk ksk ctOutDim ctOutCount ctInDim numberOfBits deltaLog bskLevel bskBaseLog
      bskGlweDim bskPolySize bskInDim kskLevel kskBaseLog kskInDim kskOutDim : Nat) :
    extractBit .debug T ofWords m fm ctVecOut ctIn fourierBsk ksk ctOutDim ctOutCount ctInDim numberOfBits deltaLog bskLevel
      bskBaseLog bskGlweDim bskPolySize bskInDim kskLevel kskBaseLog kskInDim kskOutDim ≠ .done m' := by
  intro h
  simp only [extractBit, bind_eq_done] at h
  obtain ⟨_, _, _, _, _, _, _, _, _, _, _, h6, _, _, _, _, _, _, _, _, _, _, _, _, _, _, _, _, r, hr, _⟩ := h
  rw [Wop.extractBits, if_pos (assert_done h6)] at hr
  cases hr

/-! ### Vertical packing -/

/-- The full claim fails for the vertical packing: for `k + 1` packing keyswitch keys to a GLWE key of dimension `k`, as a
circuit bootstrap needs, the function takes only `k` keys from the memory: the slice is computed with `k` instead of
`k + 1`. -/
theorem C68_vertical_packing_keys_violated {α : Type} (bld : Build) (cont : List α) (baseLog level inDim k N : Nat)
    (hl : 0 < level) (hN : 0 < N) (hb : (k + 1) * ((k + 1) * N * level * (inDim + 1)) < 2 ^ 64)
    (hc : cont.length = fpkskLen level k N inDim (k + 1)) :
    ∃ keys, fpkskKeys bld cont baseLog level inDim k N (k + 1) = .done keys ∧ keys.length = k ∧
      keys = chunks ((k + 1) * N * level * (inDim + 1)) cont := by
  have hone := Entity.lt_of_mul_lt_r (Nat.succ_pos k) hb
  have hi : 0 < inDim + 1 := Nat.succ_pos _
  have hk : 0 < k + 1 := Nat.succ_pos _
  have hpos : 0 < (k + 1) * N * level * (inDim + 1) := by positivity
  have hcl : cont.length = k * ((k + 1) * N * level * (inDim + 1)) := by rw [hc, fpkskLen]; ring
  have b1 : (k + 1) * N * level < 2 ^ 64 := Entity.lt_of_mul_lt_l hi hone
  have b2 : (k + 1) * N < 2 ^ 64 := Entity.lt_of_mul_lt_l hl b1
  have hck : Entity.ckDimDiv bld cont.length [[k + 1, N], [level], [inDim + 1], [k + 1]] = some () := by
    have f1 := Entity.fits2 (len := cont.length) (k * level * (inDim + 1)) hk hN b2 (by rw [hcl]; ring)
    have f2 := Entity.fits1 (len := cont.length) (k * (k + 1) * N * (inDim + 1)) hl
      (Entity.lt_of_mul_lt_r (a := (k + 1) * N) (by positivity) b1) (by rw [hcl]; ring)
    have f3 := Entity.fits1 (len := cont.length) (k * (k + 1) * N * level) hi
      (Entity.lt_of_mul_lt_r (a := (k + 1) * N * level) (by positivity) hone) (by rw [hcl]; ring)
    have f4 := Entity.fits1 (len := cont.length) (k * N * level * (inDim + 1)) hk
      (Entity.lt_of_mul_lt_l hN b2) (by rw [hcl]; ring)
    exact Entity.ckDimDiv_ok bld _ _ (by simpa using ⟨f1, f2, f3, f4⟩)
  have hp := Entity.prod4 bld hk hN hl hi hone
  have hck1 := Entity.ck1 bld (Entity.fits1 k hpos hone hcl)
  have hsub := Entity.subtensors_ok bld hpos cont hcl
  rw [← chunks_eq _ hpos _ _ hcl] at hsub
  have hmap : (chunks ((k + 1) * N * level * (inDim + 1)) cont).mapM (fun p => do
      let dim ← Entity.subU bld (k + 1) 1
      Entity.PackingKey.fromContainer bld p baseLog level dim N) =
      some ((chunks ((k + 1) * N * level * (inDim + 1)) cont).map fun p => ⟨p, baseLog, level, k + 1, N⟩) := by
    refine Entity.mapM_some _ _ _ fun p hp => ?_
    rw [chunks_eq _ hpos _ _ hcl] at hp
    obtain ⟨i, hi', rfl⟩ := List.mem_map.1 hp
    have hbl : (block ((k + 1) * N * level * (inDim + 1)) cont i).length = (k + 1) * N * level * (inDim + 1) :=
      block_length _ _ _ (by rw [hcl]; exact Nat.mul_le_mul_right _ (List.mem_range.1 hi'))
    have := Entity.ck2 bld (len := (block ((k + 1) * N * level * (inDim + 1)) cont i).length)
      (Entity.fits2 (level * (inDim + 1)) hk hN b2 (by rw [hbl]; ring))
      (Entity.fits1 ((k + 1) * N * (inDim + 1)) hl
        (Entity.lt_of_mul_lt_r (a := (k + 1) * N) (by positivity) b1) (by rw [hbl]; ring))
    rw [Entity.subU_ok bld hk (Entity.lt_of_mul_lt_l hN b2)]
    simp only [Entity.PackingKey.fromContainer, Nat.add_sub_cancel, this, Option.bind_eq_bind, Option.bind_some]
  refine ⟨_, ?_, chunks_length _ hpos k _ hcl, rfl⟩
  simp only [fpkskKeys, packingKeyListFromContainer, hck, Option.bind_eq_bind, Option.bind_some, orAbort, bind_done,
    Entity.PackingKeyList.keyIter, hp, hck1, hsub, pure_eq] at hmap ⊢
  rw [hmap]
  simp only [bind_done, List.map_map]
  congr 1
  exact List.map_id' _

theorem cbsKeyswitches_rest (ks : List (BitVec 64) → List (BitVec 64) → List (BitVec 64) → Option (List (BitVec 64)))
    (lwe : List (BitVec 64)) : ∀ (keys outs rs rest : List (List (BitVec 64))),
    Wop.cbsKeyswitches ks lwe keys outs = some (rs, rest) → rest = outs.drop keys.length := by
  intro keys
  induction keys with
  | nil => intro outs rs rest h; simp [Wop.cbsKeyswitches] at h; simp [h.2]
  | cons key keys ih =>
    intro outs rs rest h
    cases outs with
    | nil => simp [Wop.cbsKeyswitches] at h
    | cons o outs =>
      simp only [Wop.cbsKeyswitches] at h
      split at h
      · cases h
      split at h
      · cases h
      rename_i r _ p rs' rest' hp
      simp only [Option.some.injEq, Prod.mk.injEq] at h
      obtain ⟨-, rfl⟩ := h
      rw [ih outs rs' rest' hp]
      simp

theorem cbsLevels_rest (pbs ks : List (BitVec 64) → List (BitVec 64) → List (BitVec 64) → Option (List (BitVec 64)))
    (N k b delta : Nat) (keys : List (List (BitVec 64))) (lweIn : List (BitVec 64)) : ∀ (n level : Nat)
    (buf : List (BitVec 64)) (outs res : List (List (BitVec 64))),
    Wop.cbsLevels pbs ks N k b delta keys lweIn n level buf outs = some res →
      ∃ pre, res = pre ++ outs.drop (n * keys.length) := by
  intro n
  induction n with
  | zero => intro level buf outs res h; simp [Wop.cbsLevels] at h; exact ⟨[], by simp [h]⟩
  | succ n ih =>
    intro level buf outs res h
    simp only [Wop.cbsLevels] at h
    split at h
    · cases h
    split at h
    · cases h
    split at h
    · cases h
    rename_i rs _ hks _ tail ht
    simp only [Option.some.injEq] at h
    obtain ⟨pre, hp⟩ := ih _ _ _ _ ht
    rw [cbsKeyswitches_rest _ _ _ _ _ _ hks, List.drop_drop] at hp
    refine ⟨rs ++ pre, ?_⟩
    rw [← h, hp, List.append_assoc, Nat.succ_mul, Nat.add_comm]

/-- In a release build the circuit bootstrap runs with the `k` keys, and leaves the last `l` rows of its GGSW output as they
were in its buffer (which is zero): the output is not an encryption of the bit. -/
theorem C68_vertical_packing_unwritten
    (pbs ks : List (BitVec 64) → List (BitVec 64) → List (BitVec 64) → Option (List (BitVec 64)))
    (N k N' k' b l delta : Nat) (hN : 0 < N') (buf r lweIn : List (BitVec 64)) (keys : List (List (BitVec 64)))
    (hk : keys.length = k') (hb : buf.length = l * (k' + 1) * ((k' + 1) * N'))
    (h : Wop.circuitBootstrap .release pbs ks N k N' k' b l delta buf keys lweIn = some r) :
    ∃ pre, r = pre ++ buf.drop (l * k' * ((k' + 1) * N')) ∧
      (buf.drop (l * k' * ((k' + 1) * N'))).length = l * ((k' + 1) * N') := by
  have hpos : 0 < (k' + 1) * N' := by positivity
  rw [Wop.circuitBootstrap, if_neg (by simp), Option.map_eq_some_iff] at h
  obtain ⟨res, h, rfl⟩ := h
  obtain ⟨pre, rfl⟩ := cbsLevels_rest _ _ _ _ _ _ _ _ _ _ _ _ _ h
  refine ⟨pre.flatten, ?_, ?_⟩
  · rw [List.flatten_append, hk]
    congr 1
    exact drop_chunks hpos (l * (k' + 1)) hb (l * k') (Nat.mul_le_mul_left _ (Nat.le_succ _))
  · rw [List.length_drop, hb]
    have : l * (k' + 1) * ((k' + 1) * N') = l * k' * ((k' + 1) * N') + l * ((k' + 1) * N') := by ring
    omega

/-- The hypothesis of the previous theorem can be met. -/
example : (Wop.circuitBootstrap .release (fun o _ _ => some o) (fun _ o _ => some (o.map fun _ => 1#64)) 1 1 1 1 1 2 63
    (List.replicate 8 0#64) [[]] [0#64, 0#64]) = some [1#64, 1#64, 1#64, 1#64, 0#64, 0#64, 0#64, 0#64] := by decide +kernel

/-- In a debug build the function never returns when there are `k + 1` packing keyswitch keys. -/
theorem C68_vertical_packing_never {G : Type}
    (pbs : List C → List (BitVec 64) → List (BitVec 64) → List (BitVec 64) → Option (List (BitVec 64)))
    (ks : List (BitVec 64) → List (BitVec 64) → List (BitVec 64) → Option (List (BitVec 64)))
    (conv : List (BitVec 64) → G)
    (vp : List (List (BitVec 64)) → List (BitVec 64) → List G → Option (List (BitVec 64)))
    (m m' : List (BitVec 64)) (fm : List C)
    (ctOutVec ctInVec lut fourierBsk fpksk ctOutDim ctOutCount ctInDim ctInCount smallLutCount smallLutSize bskLevel
      bskGlweDim bskPolySize bskInDim level baseLog inDim k N cbsLevel cbsBaseLog : Nat)
    (hl : 0 < level) (hN : 0 < N) (hb : (k + 1) * ((k + 1) * N * level * (inDim + 1)) < 2 ^ 64) :
    verticalPacking .debug pbs ks conv vp m fm ctOutVec ctInVec lut fourierBsk fpksk ctOutDim ctOutCount ctInDim ctInCount
      smallLutCount smallLutSize bskLevel bskGlweDim bskPolySize bskInDim level baseLog inDim k N (k + 1) cbsLevel cbsBaseLog ≠
      .done m' := by
  intro h
  simp only [verticalPacking, bind_eq_done] at h
  obtain ⟨_, _, _, _, _, _, _, _, _, _, _, _, _, _, _, _, _, _, _, _, _, _, bigLut, _, fou, _, _, _, out, _, inp, _, cont,
    hcont, keys, hkeys, r, hr, _⟩ := h
  obtain ⟨keys', h1, h2, -⟩ := C68_vertical_packing_keys_violated .debug cont baseLog level inDim k N hl hN hb
    (slice_length hcont)
  rw [hkeys] at h1
  cases h1
  have hcb : ∀ buf c, Wop.circuitBootstrap .debug (pbs fou) ks bskPolySize bskGlweDim N k cbsBaseLog cbsLevel 63 buf keys c =
      none := fun buf c => if_pos ⟨rfl, Or.inr (Or.inr (by omega))⟩
  simp only [hcb, Wop.cbsVerticalPacking] at hr
  cases hc : chunks (ctInDim + 1) inp with
  | nil => simp [hc, orAbort] at hr
  | cons c cs =>
    simp only [hc, Wop.cbsAll] at hr
    split_ifs at hr <;> cases hr

end Verif.Capi
