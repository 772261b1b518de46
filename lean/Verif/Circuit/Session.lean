import Verif.Circuit.Client
import Verif.Circuit.Examples
import Verif.Random.GaussProps
import Verif.Fft.Props2
/-
C92: a whole session in floating point. Noise is drawn by the Gaussian sampler, polynomials are multiplied by the
Fourier transform, keys are generated, inputs encrypted, a program run, outputs decrypted.
-/
namespace Verif.Circuit
open Verif Verif.Poly Verif.Glwe Verif.Pbs Verif.Decomp Verif.Random Verif.Random.Gauss Verif.Float Verif.Fft

variable {w : Nat}

/-- A server of the Fourier backend. -/
def fftServer (w : Nat) (c : Cpu) (plan : Plan) (sinCos : F64 → F64 × F64) (logN k b l bk lk n : Nat)
    (ksk bsk : List (BitVec w)) : Server w where
  T := fftTransform w c plan (twisties sinCos (2 ^ (logN - 1)))
  logN := logN
  k := k
  b := b
  l := l
  bk := bk
  lk := lk
  n := n
  ksk := ksk
  bsk := bsk

/-- The noise of the sampler is bounded. -/
theorem noiseFn_bound {ln : F64 → F64} (hln : LnAccurate ln) (hw0 : 1 ≤ w) (hw : w ≤ 128) {d : Dispersion}
    (hd : d.Valid) : NoiseBound (noiseFn w ln d) (noiseBound w d) :=
  fun x y ha => noise_le hln hw0 hw hd x y ha

/-- The transform of a server of the Fourier backend. -/
theorem fftServer_transform (hw : w = 32 ∨ w = 64) (logN k b l : ℕ) (h4 : 4 ≤ logN) (h40 : logN ≤ 40) (c : Cpu)
    (hcpu : w = 64 → backwardIsa 64 c ≠ .avx512) (plan : Plan) (ε : ℝ) (hε : 0 ≤ ε)
    (hplan : PlanAccurate (2 ^ (logN - 1)) plan ε) (sinCos : F64 → F64 × F64) (hsc : SinCosAccurate sinCos)
    (hκ : ε + ((l * (k + 1) : ℕ) + 1) / 2 ^ 48 ≤ 1 / 100) (h : ValidParams w b l) :
    (fftTransform w c plan (twisties sinCos (2 ^ (logN - 1)))).Accurate (2 ^ logN) (l * (k + 1)) (2 ^ (b - 1))
      (fftError w (2 ^ logN) (l * (k + 1)) (2 ^ (b - 1)) ε) := by
  have e : 2 * 2 ^ (logN - 1) = 2 ^ logN := by rw [← pow_succ']; congr 1; omega
  have hb : b ≤ 64 := by
    have h1 := h.3
    have h2 : 1 * b ≤ l * b := Nat.mul_le_mul_right b h.2
    have h3 : b * l = l * b := Nat.mul_comm b l
    omega
  have hacc' := C63_products_partial hw (2 ^ (logN - 1)) (by positivity)
    (by rw [show 8 = 2 ^ 3 from rfl]; exact pow_dvd_pow 2 (by omega)) (Nat.pow_le_pow_right (by norm_num) (by omega)) c hcpu plan ε
    hε hplan sinCos hsc (l * (k + 1)) (2 ^ (b - 1)) (one_le_pow₀ (by norm_num))
    (pow_le_pow_right₀ (by norm_num) (by omega)) hκ
  rw [e] at hacc'
  exact hacc'

/-- C92. Keys are generated with noise parameters `dk` (keyswitching key) and `db` (bootstrapping key, by any number of
threads), inputs are encrypted with the noise parameter `d`, a program is run with the Fourier backend. If the noise
bounds computed from 13.22 standard deviations allow the program, then for all bytes that the generators give, every
register whose bound is below half a step decrypts and decodes to the result of the program on integers. Partial: as
C63, not for the 64-bit AVX-512 version nor for polynomials of size less than 16. -/
theorem C92_session_partial (hw : w = 32 ∨ w = 64) (c : Cpu) (hcpu : w = 64 → backwardIsa 64 c ≠ .avx512)
    (logN k b l bk lk n : ℕ) (h4 : 4 ≤ logN) (h40 : logN ≤ 40) (hlog : logN + 2 < w)
    (gadget : ValidParams w b l) (kgadget : ValidParams w bk lk)
    -- the libraries that compute transforms, sines and logarithms
    (plan : Plan) (ε : ℝ) (hε : 0 ≤ ε) (hplan : PlanAccurate (2 ^ (logN - 1)) plan ε)
    (hκ : ε + ((l * (k + 1) : ℕ) + 1) / 2 ^ 48 ≤ 1 / 100)
    (sinCos : F64 → F64 × F64) (hsc : SinCosAccurate sinCos) (ln : F64 → F64) (hln : LnAccurate ln)
    -- the noise parameters
    (d dk db : Dispersion) (hd : d.Valid) (hdk : dk.Valid) (hdb : db.Valid)
    -- the secret keys and the generation of the evaluation keys
    (small big : List (BitVec w)) (smallLen : small.length = n) (bigLen : KeyFits (2 ^ logN) k big)
    (smallBin : Lwe.BinaryKey small) (bigBin : Lwe.BinaryKey big)
    (ksk0 bsk0 ksk bsk : List (BitVec w)) (g g1 h h1 : EncGen) (sched : List Nat)
    (levelSched : Nat → List Nat) (rowSched : Nat → Nat → List Nat)
    (hs : BskSchedules n l k sched levelSched rowSched)
    (hk0 : ksk0.length = big.length * (lk * (n + 1)))
    (hb0 : bsk0.length = n * (l * ((k + 1) * ((k + 1) * 2 ^ logN))))
    (hksk : Lwe.fillKeyswitchKey (noiseFn w ln dk) big small bk lk (n + 1) ksk0 g = some (ksk, g1))
    (hbsk : parFillBsk (noiseFn w ln db) small big (2 ^ logN) k b l sched levelSched rowSched bsk0 h = some (bsk, h1))
    -- the encryption of the inputs: `2 p` messages at scale `2^s`
    (p s : ℕ) (hs' : s ≤ w) (hp : 2 * p = 2 ^ (w - s)) (cts : List (List (BitVec w))) (ms : List ℤ)
    (hlen : cts.length = ms.length)
    (henc : ∀ (i : Nat) (ct : List (BitVec w)) (m : ℤ), cts[i]? = some ct → ms[i]? = some m →
      ∃ out g g', Lwe.Fits big out ∧ Lwe.encryptLwe (noiseFn w ln d) big out ((2 ^ s * m : ℤ) : BitVec w) g = some (ct, g'))
    -- the program
    (prog : List Instr) (bs : List ℤ)
    (hn : let S := fftServer w c plan sinCos logN k b l bk lk n ksk bsk
      noise (2 ^ s) (ksBound S (noiseBound w dk)) (switchBound S small)
        (pbsBound S (fftError w (2 ^ logN) (l * (k + 1)) (2 ^ (b - 1)) ε) (noiseBound w db)) prog
        (List.replicate ms.length (noiseBound w d : ℤ)) = some bs) :
    ∃ regs, exec (fftServer w c plan sinCos logN k b l bk lk n ksk bsk) p (2 ^ s) prog cts = some regs ∧
      regs.length = ms.length ∧
      ∀ (i : Nat) (x : ℤ), bs[i]? = some x → 2 * x < 2 ^ s →
        ∃ ct y, regs[i]? = some ct ∧ Lwe.decryptLwe big ct = some y ∧
          (decode s y : ℤ) = (clear p prog ms).getD i 0 % (2 * p) := by
  have hw0 : 1 ≤ w := by omega
  have hw1 : w ≤ 128 := by omega
  have hS := C62_keys (fftServer w c plan sinCos logN k b l bk lk n ksk bsk) small big
    (fftError w (2 ^ logN) (l * (k + 1)) (2 ^ (b - 1)) ε) (noiseBound w db) (noiseBound w dk) _ _
    (noiseFn_bound hln hw0 hw1 hdk) (noiseFn_bound hln hw0 hw1 hdb) hlog gadget kgadget
    (fftServer_transform hw logN k b l h4 h40 c hcpu plan ε hε hplan sinCos hsc hκ gadget)
    (fftError_nonneg _ _ _ _ (by positivity) _ hε) (Int.natCast_nonneg _) smallLen bigLen smallBin bigBin ksk0 bsk0
    g g1 h h1 sched levelSched rowSched (by rw [smallLen]; exact hs) hk0 (by rw [smallLen]; exact hb0) hksk hbsk
  exact C62_end_to_end _ small big _ _ _ hS p s hs' hp _ _ (noiseFn_bound hln hw0 hw1 hd) cts ms bs hlen henc prog hn

/-! ### The hypotheses are satisfiable -/

theorem gaussianPair_congr (f f' : GaussianFn w) (h1 : f'.accept = f.accept)
    (h2 : ∀ x y, f.accept x y = true → f'.value x y = f.value x y) : gaussianPair f = gaussianPair f' := by
  have : ∀ fuel, gaussianLoop f fuel = gaussianLoop f' fuel := by
    intro fuel
    induction fuel with
    | zero => rfl
    | succ n ih =>
      funext g
      simp only [gaussianLoop, h1, ih]
      split
      · rfl
      · split
        · rfl
        · split
          · rename_i ha
            rw [h2 _ _ ha]
          · rfl
  funext g
  rw [gaussianPair, gaussianPair, this]

theorem encryptLwe_congr (f f' : GaussianFn w) (h : gaussianPair f = gaussianPair f') :
    Lwe.encryptLwe f = Lwe.encryptLwe f' := by
  have hn : randomNoise f = randomNoise f' := by funext g; simp only [randomNoise, h]
  funext key out msg g
  simp only [Lwe.encryptLwe, Lwe.fillMaskAndBody, hn]

theorem fillKsk_congr (f f' : GaussianFn w) (h : gaussianPair f = gaussianPair f') :
    Lwe.fillKeyswitchKey f = Lwe.fillKeyswitchKey f' := by
  have he := encryptLwe_congr f f' h
  have hl : ∀ key cs ms g, Lwe.encryptLweListAux f key cs ms g = Lwe.encryptLweListAux f' key cs ms g := by
    intro key cs
    induction cs with
    | nil => intro ms g; simp only [Lwe.encryptLweListAux]
    | cons c cs ih =>
      intro ms g
      cases ms with
      | nil => rfl
      | cons m ms => simp only [Lwe.encryptLweListAux, he, ih]
  have hk : ∀ key b l n bits blks g,
      Lwe.fillKeyswitchKeyAux f key b l n bits blks g = Lwe.fillKeyswitchKeyAux f' key b l n bits blks g := by
    intro key b l n bits
    induction bits with
    | nil => intro blks g; simp only [Lwe.fillKeyswitchKeyAux]
    | cons c cs ih =>
      intro blks g
      cases blks with
      | nil => rfl
      | cons m ms => simp only [Lwe.fillKeyswitchKeyAux, Lwe.encryptLweList, hl, ih]
  funext s s' b l n ksk g
  simp only [Lwe.fillKeyswitchKey, hk]

theorem parFillBsk_congr (f f' : GaussianFn w) (h : gaussianPair f = gaussianPair f') :
    parFillBsk f = parFillBsk f' := by
  have hn : ∀ n, randomNoiseTensor f n = randomNoiseTensor f' n := by
    intro n; funext g; simp only [randomNoiseTensor, h]
  have hr : rowEnc f = rowEnc f' := by
    funext key N msg g row
    simp only [rowEnc, encryptGlwe, Glwe.fillMaskAndBody, hn]
  have hp : parEncryptGgsw f = parEncryptGgsw f' := by
    funext a b c d e m n o p
    simp only [parEncryptGgsw, hr]
  funext a b c d e m n o p q r
  simp only [parFillBsk, hp]

/-- Standard deviation `2^-40`: the noise of 32-bit ciphertexts is always 0. -/
def tinyNoise : Dispersion := .standardDev (.fin (1 / 2 ^ 40))

theorem tiny_valid : tinyNoise.Valid :=
  ⟨by norm_num, le_trans (by norm_num) (one_le_pow₀ (by norm_num) : (1 : ℚ) ≤ 2 ^ 900)⟩

theorem tiny_bound : noiseBound 32 tinyNoise = 0 := by
  rw [noiseBound, Nat.floor_eq_zero]
  show 13.22 * (((1 / 2 ^ 40 : ℚ)) : ℝ) * 2 ^ 32 + 1 / 2 < 1
  push_cast
  norm_num

/-- The sampler without its arithmetic. -/
def zeroNoise : GaussianFn 32 := { accept := accept, value := fun _ _ => (0, 0) }

theorem tiny_eq {ln : F64 → F64} (hln : LnAccurate ln) :
    gaussianPair (noiseFn 32 ln tinyNoise) = gaussianPair zeroNoise := by
  refine gaussianPair_congr _ _ rfl fun x y ha => ?_
  obtain ⟨h1, h2⟩ := noise_le hln (by norm_num) (by norm_num) tiny_valid x y ha
  rw [tiny_bound] at h1 h2
  have z : ∀ e : BitVec 32, |e.toInt| ≤ ((0 : ℕ) : ℤ) → e = 0 := by
    intro e he
    apply BitVec.eq_of_toInt_eq
    have := abs_nonpos_iff.1 he
    rw [this]; rfl
  exact (Prod.ext (z _ h1) (z _ h2)).symm

def tinySmall : List (BitVec 32) := [1, 0]
def tinyBig : List (BitVec 32) := List.replicate 16 1

theorem tiny_binary : Lwe.BinaryKey tinySmall ∧ Lwe.BinaryKey tinyBig := by
  constructor
  · intro x hx
    rcases List.mem_cons.1 hx with h | h
    · exact Or.inr h
    · exact Or.inl (List.mem_singleton.1 h)
  · exact fun x hx => Or.inr (List.eq_of_mem_replicate hx)

theorem tiny_fits : Lwe.Fits tinyBig (List.replicate 17 (0 : BitVec 32)) := by
  rw [Lwe.Fits, tinyBig, List.length_replicate, List.length_replicate]

/-- `r0 := 2 r0 + r1; r0 := T[r0]; r1 := T'[r0]`. -/
def tinyProg : List Instr := [.mulInto 0 2, .addInto 0 1, .lookup 0 0 [1, 0, 3, 2], .lookup 1 0 [3, 2, 1, 1]]

theorem tiny_noise (P : ℤ) (hP : P ≤ 2 ^ 25) : noise (2 ^ 29) (2 ^ 20) (2 ^ 27) P tinyProg [0, 0] = some [P, P] := by
  have c2 : 2 * (P + 2 ^ 20 + 2 ^ 27) < 2 ^ 29 := by norm_num at hP ⊢; linarith
  have e1 : noiseValue (2 ^ 29) (2 ^ 20) (2 ^ 27) P [0, 0] (.mulInto 0 2) = some 0 := rfl
  have e2 : noiseValue (2 ^ 29) (2 ^ 20) (2 ^ 27) P [0, 0] (.addInto 0 1) = some 0 := rfl
  have e3 : noiseValue (2 ^ 29) (2 ^ 20) (2 ^ 27) P [0, 0] (.lookup 0 0 [1, 0, 3, 2]) = some P := by
    show (if 2 * ((0 : ℤ) + 2 ^ 20 + 2 ^ 27) < 2 ^ 29 then some P else none) = some P
    rw [if_pos (by norm_num)]
  have e4 : noiseValue (2 ^ 29) (2 ^ 20) (2 ^ 27) P [P, 0] (.lookup 1 0 [3, 2, 1, 1]) = some P := by
    show (if 2 * (P + 2 ^ 20 + 2 ^ 27) < 2 ^ 29 then some P else none) = some P
    rw [if_pos c2]
  rw [tinyProg, noise, e1, Option.bind_some, Instr.dest, List.set_cons_zero, noise, e2, Option.bind_some, Instr.dest,
    List.set_cons_zero, noise, e3, Option.bind_some, Instr.dest, List.set_cons_zero, noise, e4]
  rfl

theorem tiny_pbs (F : ℤ) (hF : F ≤ 100) (c : Cpu) (plan : Plan) (sinCos : F64 → F64 × F64) (ksk bsk : List (BitVec 32)) :
    pbsBound (fftServer 32 c plan sinCos 4 1 6 2 5 3 2 ksk bsk) F 0 ≤ 2 ^ 25 := by
  simp only [pbsBound, fftServer, Server.N, epBound]
  norm_num
  linarith

theorem tiny_ks (c : Cpu) (plan : Plan) (sinCos : F64 → F64 × F64) (ksk bsk : List (BitVec 32)) :
    ksBound (fftServer 32 c plan sinCos 4 1 6 2 5 3 2 ksk bsk) 0 = 2 ^ 20 ∧
    switchBound (fftServer 32 c plan sinCos 4 1 6 2 5 3 2 ksk bsk) tinySmall = 2 ^ 27 := by
  have hw : weight tinySmall = 1 := by decide
  simp only [ksBound, switchBound, fftServer, Server.N, hw]
  norm_num

/-- C92 is not vacuous: `N = 16`, 32-bit words, 8 messages, an ideal transform, and a program with two lookups in a
row. -/
example : ∃ ln plan sinCos ksk bsk cts regs,
    LnAccurate ln ∧ PlanAccurate (2 ^ 3) plan (2 * u53) ∧ SinCosAccurate sinCos ∧
    exec (fftServer 32 avx2Cpu plan sinCos 4 1 6 2 5 3 2 ksk bsk) 4 (2 ^ 29) tinyProg cts = some regs ∧
    ∀ i, i < 2 → ∃ ct y, regs[i]? = some ct ∧ Lwe.decryptLwe tinyBig ct = some y ∧
      (decode 29 y : ℤ) = (clear 4 tinyProg [1, -2]).getD i 0 % 8 := by
  obtain ⟨ln, hln⟩ := exists_ln
  have hk : (Lwe.fillKeyswitchKey zeroNoise tinyBig tinySmall 5 3 3 (List.replicate (16 * 9) 0) (demoGen 0)).isSome := by
    decide +kernel
  have hb : (parFillBsk zeroNoise tinySmall tinyBig 16 1 6 2 (List.range 2) (fun _ => List.range 2) (fun _ _ => List.range 2)
      (List.replicate (2 * (2 * (2 * 32))) 0) (demoGen 5)).isSome := by
    decide +kernel
  have h0 : (Lwe.encryptLwe zeroNoise tinyBig (List.replicate 17 0) ((2 ^ 29 * 1 : ℤ) : BitVec 32) (demoGen 1)).isSome := by
    decide +kernel
  have h1 : (Lwe.encryptLwe zeroNoise tinyBig (List.replicate 17 0) ((2 ^ 29 * (-2) : ℤ) : BitVec 32) (demoGen 2)).isSome := by
    decide +kernel
  obtain ⟨⟨ksk, gk⟩, hk⟩ := Option.isSome_iff_exists.1 hk
  obtain ⟨⟨bsk, gb⟩, hb⟩ := Option.isSome_iff_exists.1 hb
  obtain ⟨⟨c0, g0⟩, h0⟩ := Option.isSome_iff_exists.1 h0
  obtain ⟨⟨c1, g1⟩, h1⟩ := Option.isSome_iff_exists.1 h1
  have hfe : fftError 32 (2 ^ 4) (2 * (1 + 1)) (2 ^ (6 - 1)) (2 * u53) ≤ 100 := by
    rw [fftError]
    have : ⌈(2 : ℝ) ^ 32 * (16 * (2 * u53 + ((2 * (1 + 1) : ℕ) + 1) / 2 ^ 48) * (2 * (1 + 1) : ℕ) *
        ((2 ^ (6 - 1) : ℤ) : ℝ) * ((2 ^ 4 : ℕ) : ℝ))⌉ ≤ 98 := by
      rw [Int.ceil_le]
      unfold u53
      norm_num
    linarith
  have key := C92_session_partial (w := 32) (Or.inl rfl) avx2Cpu (by decide) 4 1 6 2 5 3 2 (by norm_num) (by norm_num)
    (by norm_num) ⟨by norm_num, by norm_num, by norm_num⟩ ⟨by norm_num, by norm_num, by norm_num⟩ (idealPlan (2 ^ 3))
    (2 * u53) (by linarith [u53_pos]) (idealPlan_accurate (2 ^ 3) (by norm_num) (by norm_num))
    (by have := ideal_const 4 (by norm_num); exact_mod_cast this) idealSinCos idealSinCos_accurate ln hln
    tinyNoise tinyNoise tinyNoise tiny_valid tiny_valid tiny_valid tinySmall tinyBig rfl rfl tiny_binary.1 tiny_binary.2
    (List.replicate (16 * 9) 0) (List.replicate (2 * (2 * (2 * 32))) 0) ksk bsk (demoGen 0) gk (demoGen 5) gb
    (List.range 2) (fun _ => List.range 2) (fun _ _ => List.range 2)
    ⟨List.Perm.refl _, fun _ => List.Perm.refl _, fun _ _ => List.Perm.refl _⟩ (List.length_replicate ..)
    (List.length_replicate ..) (by rw [fillKsk_congr _ _ (tiny_eq hln)]; exact hk)
    (by rw [parFillBsk_congr _ _ (tiny_eq hln)]; exact hb) 4 29 (by norm_num) (by norm_num) [c0, c1] [1, -2] rfl
    (by
      intro i ct m hi hm
      rw [encryptLwe_congr _ _ (tiny_eq hln)]
      match i, hi, hm with
      | 0, hi, hm => cases hi; cases hm; exact ⟨_, _, _, tiny_fits, h0⟩
      | 1, hi, hm => cases hi; cases hm; exact ⟨_, _, _, tiny_fits, h1⟩)
    tinyProg
  obtain ⟨hKS, hQ⟩ := tiny_ks avx2Cpu (idealPlan (2 ^ 3)) idealSinCos ksk bsk
  have hP := tiny_pbs _ hfe avx2Cpu (idealPlan (2 ^ 3)) idealSinCos ksk bsk
  rw [tiny_bound] at key
  dsimp only at key
  rw [hKS, hQ] at key
  rw [Nat.cast_zero] at key
  generalize pbsBound (fftServer 32 avx2Cpu (idealPlan (2 ^ 3)) idealSinCos 4 1 6 2 5 3 2 ksk bsk) _ 0 = P at key hP
  obtain ⟨regs, r1, -, r3⟩ := key [P, P] (tiny_noise P hP)
  have hlt : 2 * P < 2 ^ 29 := by norm_num at hP ⊢; linarith
  refine ⟨ln, idealPlan (2 ^ 3), idealSinCos, ksk, bsk, [c0, c1], regs, hln,
    idealPlan_accurate (2 ^ 3) (by norm_num) (by norm_num), idealSinCos_accurate, r1, fun i hi => ?_⟩
  exact r3 i P (by match i, hi with | 0, _ => rfl | 1, _ => rfl) hlt

end Verif.Circuit
