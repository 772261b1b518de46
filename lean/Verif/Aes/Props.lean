import Verif.Aes.Lemmas
import Verif.Csprng.Props
/-
C53: the block ciphers of the three generators are AES-128, so the generators of all backends output the same
bytes for the same seed.
-/
namespace Verif.Aes
open Verif.Csprng

/-- The cipher of a seed: counter `c` is encrypted with AES-128 (FIPS 197) under the seed, both as little
endian blocks. -/
def aesCipher (seed : BitVec 128) : Cipher Byte :=
  fun c k => aes128 (leBytes seed) (leBytes (BitVec.ofNat 128 c)) (Fin.ofNat 16 k)

/-- The S-box of the specification: the inverse in GF(2^8), or 0, followed by the affine transformation. -/
theorem sbox_spec (a : Byte) : ∃ b : Byte, sbox a = affine b ∧ (if a = 0 then b = 0 else gmul a b = 1) := by
  have h : ∀ n < 256, ∃ m < 256, sbox (BitVec.ofNat 8 n) = affine (BitVec.ofNat 8 m) ∧
      (if n = 0 then m = 0 else gmul (BitVec.ofNat 8 n) (BitVec.ofNat 8 m) = 1) := by
    decide +kernel
  obtain ⟨m, hm, h1, h2⟩ := h a.toNat a.isLt
  rw [BitVec.ofNat_toNat, BitVec.setWidth_eq] at h1 h2
  refine ⟨BitVec.ofNat 8 m, h1, ?_⟩
  by_cases ha : a = 0
  · subst ha
    rw [if_pos (by rfl)] at h2
    rw [if_pos rfl, h2]
    rfl
  · rw [if_neg ha]
    rwa [if_neg (fun e => ha (by apply BitVec.eq_of_toNat_eq; rw [e]; rfl))] at h2

/-- C53, x86-64: on a CPU with the required features, every batch of the AES-NI generator is the AES-128
encryption of the eight counters. -/
theorem C53_aesni (m : Build) (seed : BitVec 128) (ctr : Nat) (roundKeys : List Reg)
    (hk : aesniNew true true seed = some roundKeys) :
    aesniGenerateBatch m roundKeys ctr = generateBatch m (aesCipher seed) ctr := by
  have hk : aes128KeyExpansion (u128ToReg seed) = roundKeys := by simpa [aesniNew] using hk
  subst hk
  rw [show aesCipher seed = (fun c k => (fun r => aes128 (u128ToReg seed) r) (ctrReg c) (Fin.ofNat 16 k)) from rfl,
    ← batch_eq m (fun r => aes128 (u128ToReg seed) r) ctr]
  simp only [aesniGenerateBatch, aesniEncryptMany, aesniEncrypt_eq, List.map_map, Function.comp_def]

/-- C53, aarch64. -/
theorem C53_aarch64 (m : Build) (seed : BitVec 128) (ctr : Nat) (roundKeys : List Reg)
    (hk : armNew true true seed = some roundKeys) :
    armGenerateBatch m roundKeys ctr = generateBatch m (aesCipher seed) ctr := by
  have hk : armRoundKeys seed = roundKeys := by simpa [armNew] using hk
  subst hk
  unfold armGenerateBatch generateBatch
  simp only [armEncrypt_eq]
  rfl

/-- C53, software generator: relative to the external crate implementing AES-128. -/
theorem C53_soft (crate128 : (Fin 16 → Byte) → (Fin 16 → Byte) → (Fin 16 → Byte)) (hc : crate128 = aes128)
    (m : Build) (seed : BitVec 128) (ctr : Nat) :
    softGenerateBatch crate128 m seed ctr = generateBatch m (aesCipher seed) ctr := by
  subst hc
  rw [show aesCipher seed = (fun c k => (fun r => aes128 (u128ToReg seed) r) (ctrReg c) (Fin.ofNat 16 k)) from rfl,
    ← batch_eq m (fun r => aes128 (u128ToReg seed) r) ctr]
  rfl

/-- C53: the batches of the three implementations are equal, panics included. -/
theorem C53_backends_agree (m : Build) (seed : BitVec 128) (ctr : Nat) (kx ka : List Reg)
    (hx : aesniNew true true seed = some kx) (ha : armNew true true seed = some ka) :
    aesniGenerateBatch m kx ctr = armGenerateBatch m ka ctr ∧
    aesniGenerateBatch m kx ctr = softGenerateBatch aes128 m seed ctr := by
  rw [C53_aesni m seed ctr kx hx, C53_aarch64 m seed ctr ka ha, C53_soft aes128 rfl m seed ctr]
  exact ⟨rfl, rfl⟩

/-- C53: the hardware generators refuse to be created on a CPU without the instructions, and only then. -/
theorem C53_features (aes simd : Bool) (seed : BitVec 128) :
    (aesniNew aes simd seed = none ↔ ¬ (aes = true ∧ simd = true)) ∧
    (armNew aes simd seed = none ↔ ¬ (aes = true ∧ simd = true)) := by
  cases aes <;> cases simd <;> simp [aesniNew, armNew]

/-- C53 with C01: the default generator of a seed outputs byte `p % 16` of the AES-128 encryption of counter
`p / 16`, for `p = 1, 2, 3, ..` -/
theorem C53_default_generator (seed : BitVec 128) :
    ∃ g : Gen Byte, Gen.new none none = some g ∧
      ∀ n, ∃ g', g.draw .release (aesCipher seed) n =
        some ((List.range n).map fun i => if 1 + i < 2 ^ 132 - 1 then
          some (aes128 (leBytes seed) (leBytes (BitVec.ofNat 128 ((1 + i) / 16))) (Fin.ofNat 16 ((1 + i) % 16)))
          else none, g') := by
  obtain ⟨g, h1, h2⟩ := C01_default_generator (aesCipher seed)
  exact ⟨g, h1, h2⟩

/-! ### The specification on the vectors of FIPS 197 -/

/-- FIPS 197, appendix B: the first round. -/
example : ∀ i, ofState (addRoundKey (mixColumns (shiftRows (subBytes (toState
      (block [0x19, 0x3d, 0xe3, 0xbe, 0xa0, 0xf4, 0xe2, 0x2b, 0x9a, 0xc6, 0x8d, 0x2a, 0xe9, 0xf8, 0x48, 0x08])))))
      (fun c => word ([[0xa0, 0xfa, 0xfe, 0x17], [0x88, 0x54, 0x2c, 0xb1], [0x23, 0xa3, 0x39, 0x39],
        [0x2a, 0x6c, 0x76, 0x05]].getD c.val []))) i =
    block [0xa4, 0x9c, 0x7f, 0xf2, 0x68, 0x9f, 0x35, 0x2b, 0x6b, 0x5b, 0xea, 0x43, 0x02, 0x6a, 0x50, 0x49] i := by
  decide +kernel

/-- FIPS 197, appendix B: the last round. -/
example : ∀ i, ofState (addRoundKey (shiftRows (subBytes (toState
      (block [0xeb, 0x40, 0xf2, 0x1e, 0x59, 0x2e, 0x38, 0x84, 0x8b, 0xa1, 0x13, 0xe7, 0x1b, 0xc3, 0x42, 0xd2]))))
      (fun c => word ([[0xd0, 0x14, 0xf9, 0xa8], [0xc9, 0xee, 0x25, 0x89], [0xe1, 0x3f, 0x0c, 0xc8],
        [0xb6, 0x63, 0x0c, 0xa6]].getD c.val []))) i =
    block [0x39, 0x25, 0x84, 0x1d, 0x02, 0xdc, 0x09, 0xfb, 0xdc, 0x11, 0x85, 0x97, 0x19, 0x6a, 0x0b, 0x32] i := by
  decide +kernel

/-- FIPS 197, appendix A.1: the words `w4` to `w8` of the key schedule. -/
example : ∀ i, (List.range 5).map (fun n => (keyExpansion (block [0x2b, 0x7e, 0x15, 0x16, 0x28, 0xae, 0xd2, 0xa6,
      0xab, 0xf7, 0x15, 0x88, 0x09, 0xcf, 0x4f, 0x3c])).getD (4 + n) (fun _ => 0) i) =
    [word [0xa0, 0xfa, 0xfe, 0x17] i, word [0x88, 0x54, 0x2c, 0xb1] i, word [0x23, 0xa3, 0x39, 0x39] i,
     word [0x2a, 0x6c, 0x76, 0x05] i, word [0xf2, 0xc2, 0x95, 0xf2] i] := by
  decide +kernel

/-- The hypotheses of `C53_aesni` and `C53_aarch64` are met. -/
example : (aesniNew true true 5#128).isSome = true ∧ (armNew true true 5#128).isSome = true := ⟨rfl, rfl⟩

end Verif.Aes
