import Verif.Aes.Spec
import Verif.Csprng.Model
/-
The AES block ciphers of the generators.
Source: /repo/concrete-csprng/src/generators/implem/{aesni,aarch64,soft}/block_cipher.rs.

A 128-bit register is the function giving its 16 bytes in memory order (both targets are little endian). The
vector instructions are modelled after the Intel and ARM manuals, on the register bytes; the S-box and the
field multiplication are those of FIPS 197, to which both manuals refer.
-/
namespace Verif.Aes
open Verif.Csprng

/-- `__m128i`, `uint8x16_t`. -/
abbrev Reg := Fin 16 → Byte

/-- Byte `n` of a register; `n` is below 16 in all uses. -/
def Reg.at (a : Reg) (n : Nat) : Byte := a (Fin.ofNat 16 n)

/-! ### Instructions -/

/-- `_mm_xor_si128`, `veorq_u8`. -/
def xorReg (a b : Reg) : Reg := fun i => a i ^^^ b i

/-- Intel manual, `ShiftRows`; ARM manual, `AESShiftRows`, on the register bytes. -/
def shiftRowsReg (a : Reg) : Reg := fun i => a.at ((i.val + 4 * (i.val % 4)) % 16)

/-- Intel manual, `SubBytes`; ARM manual, `AESSubBytes`. -/
def subBytesReg (a : Reg) : Reg := fun i => sbox (a i)

/-- Intel manual, `MixColumns`; ARM manual, `AESMixColumns` (`vaesmcq_u8`). -/
def mixColumnsReg (a : Reg) : Reg := fun i =>
  gmul (a i) 2 ^^^ gmul (a.at (4 * (i.val / 4) + (i.val + 1) % 4)) 3 ^^^
    a.at (4 * (i.val / 4) + (i.val + 2) % 4) ^^^ a.at (4 * (i.val / 4) + (i.val + 3) % 4)

/-- `_mm_aesenc_si128`: ShiftRows, SubBytes, MixColumns, xor with the round key. -/
def mm_aesenc (a k : Reg) : Reg := xorReg (mixColumnsReg (subBytesReg (shiftRowsReg a))) k

/-- `_mm_aesenclast_si128`: ShiftRows, SubBytes, xor with the round key. -/
def mm_aesenclast (a k : Reg) : Reg := xorReg (subBytesReg (shiftRowsReg a)) k

/-- `_mm_slli_si128`: shift left by `n` bytes. -/
def mm_slli (a : Reg) (n : Nat) : Reg := fun i => if i.val < n then 0 else a.at (i.val - n)

/-- `_mm_shuffle_epi32`: dword `j` of the result is the dword of `a` selected by bits `2 j`, `2 j + 1` of
`imm`. -/
def mm_shuffle_epi32 (a : Reg) (imm : Nat) : Reg := fun i => a.at (4 * ((imm >>> (2 * (i.val / 4))) % 4) + i.val % 4)

/-- `_mm_aeskeygenassist_si128`: with `X1`, `X3` the dwords 1 and 3 of `a`, the dwords of the result are
`SubWord X1`, `RotWord (SubWord X1) ^ rcon`, `SubWord X3`, `RotWord (SubWord X3) ^ rcon`. -/
def mm_aeskeygenassist (a : Reg) (rc : Byte) : Reg := fun i =>
  match i.val / 4 with
  | 0 => sbox (a.at (4 + i.val % 4))
  | 1 => sbox (a.at (4 + (i.val + 1) % 4)) ^^^ (if i.val % 4 = 0 then rc else 0)
  | 2 => sbox (a.at (12 + i.val % 4))
  | _ => sbox (a.at (12 + (i.val + 1) % 4)) ^^^ (if i.val % 4 = 0 then rc else 0)

/-- `vaeseq_u8`: xor with the key, ShiftRows, SubBytes. -/
def vaeseq (a k : Reg) : Reg := subBytesReg (shiftRowsReg (xorReg a k))

/-- `vaesmcq_u8`. -/
def vaesmcq (a : Reg) : Reg := mixColumnsReg a

/-! ### AES-NI -/

/-- aesni/block_cipher.rs:166-168 `u128_to_si128` (and aarch64/block_cipher.rs:75-77, `to_ne_bytes`): a
transmute. -/
def u128ToReg (x : BitVec 128) : Reg := fun i => x.extractLsb' (8 * i.val) 8

/-- aesni/block_cipher.rs:111-126 `aes_128_assist`. -/
def aes128Assist (temp1 temp2 : Reg) : Reg :=
  let temp2 := mm_shuffle_epi32 temp2 0xff
  let temp3 := mm_slli temp1 4
  let temp1 := xorReg temp1 temp3
  let temp3 := mm_slli temp3 4
  let temp1 := xorReg temp1 temp3
  let temp3 := mm_slli temp3 4
  let temp1 := xorReg temp1 temp3
  xorReg temp1 temp2

/-- aesni/block_cipher.rs:128-164 `aes_128_key_expansion`: the stores to `keys[0]`, .., `keys[10]`. -/
def aes128KeyExpansion (key : Reg) : List Reg :=
  let t0 := key
  let t1 := aes128Assist t0 (mm_aeskeygenassist t0 0x01)
  let t2 := aes128Assist t1 (mm_aeskeygenassist t1 0x02)
  let t3 := aes128Assist t2 (mm_aeskeygenassist t2 0x04)
  let t4 := aes128Assist t3 (mm_aeskeygenassist t3 0x08)
  let t5 := aes128Assist t4 (mm_aeskeygenassist t4 0x10)
  let t6 := aes128Assist t5 (mm_aeskeygenassist t5 0x20)
  let t7 := aes128Assist t6 (mm_aeskeygenassist t6 0x40)
  let t8 := aes128Assist t7 (mm_aeskeygenassist t7 0x80)
  let t9 := aes128Assist t8 (mm_aeskeygenassist t8 0x1b)
  let t10 := aes128Assist t9 (mm_aeskeygenassist t9 0x36)
  [t0, t1, t2, t3, t4, t5, t6, t7, t8, t9, t10]

/-- Indexing an array of round keys; the indices are in range in all uses. -/
def keyAt (keys : List Reg) (i : Nat) : Reg := keys.getD i (fun _ => 0)

/-- aesni/block_cipher.rs:78-106: what `aes_encrypt_many` does to one of its eight messages. -/
def aesniEncrypt (message : Reg) (keys : List Reg) : Reg :=
  let tmp := xorReg message (keyAt keys 0)
  let tmp := ((keys.take 10).drop 1).foldl (fun tmp key => mm_aesenc tmp key) tmp
  mm_aesenclast tmp (keyAt keys 10)

/-- aesni/block_cipher.rs:57-109 `aes_encrypt_many`. -/
def aesniEncryptMany (messages : List Reg) (keys : List Reg) : List Reg :=
  messages.map fun m => aesniEncrypt m keys

/-- A counter as a message block. -/
def ctrReg (c : Nat) : Reg := u128ToReg (BitVec.ofNat 128 c)

/-- aesni/block_cipher.rs:16-30 and 47-52: `new`, `generate_round_keys`. `none` is the panic when the CPU
lacks a feature. -/
def aesniNew (aesDetected sse2Detected : Bool) (key : BitVec 128) : Option (List Reg) :=
  if !(aesDetected && sse2Detected) then none else some (aes128KeyExpansion (u128ToReg key))

/-- aesni/block_cipher.rs:32-44 `generate_batch` and 175-177 `si128arr_to_u8arr`. -/
def aesniGenerateBatch (m : Build) (roundKeys : List Reg) (ctr : Nat) : Option (List Byte) := do
  let m1 ← m.addU128 ctr 0
  let m2 ← m.addU128 ctr 1
  let m3 ← m.addU128 ctr 2
  let m4 ← m.addU128 ctr 3
  let m5 ← m.addU128 ctr 4
  let m6 ← m.addU128 ctr 5
  let m7 ← m.addU128 ctr 6
  let m8 ← m.addU128 ctr 7
  pure ((aesniEncryptMany ([m1, m2, m3, m4, m5, m6, m7, m8].map ctrReg) roundKeys).flatMap List.ofFn)

/-! ### aarch64 -/

/-- A `u32` as the four bytes it occupies in memory. -/
def u32Bytes (x : BitVec 32) : Word := fun i => x.extractLsb' (8 * i.val) 8

/-- Four bytes of memory read as a `u32`. -/
def bytesU32 (a b c d : Byte) : BitVec 32 := d ++ c ++ b ++ a

/-- Lane `j` of `vreinterpretq_u32_u8`. -/
def regLane (a : Reg) (j : Nat) : BitVec 32 :=
  bytesU32 (a.at (4 * j)) (a.at (4 * j + 1)) (a.at (4 * j + 2)) (a.at (4 * j + 3))

/-- `vreinterpretq_u8_u32 (vdupq_n_u32 x)`. -/
def dupReg (x : BitVec 32) : Reg := fun i => u32Bytes x (Fin.ofNat 4 (i.val % 4))

/-- aarch64/block_cipher.rs:58-69 `sub_word`. -/
def armSubWord (word : BitVec 32) : BitVec 32 := regLane (vaeseq (dupReg word) (fun _ => 0)) 0

/-- aarch64/block_cipher.rs:9 `RCONS`. -/
def RCONS : List (BitVec 32) := [0x01, 0x02, 0x04, 0x08, 0x10, 0x20, 0x40, 0x80, 0x1B, 0x36]

/-- aarch64/block_cipher.rs:91-98: the value stored in `words[i]`. The indices are in range. -/
def armNextWord (words : List (BitVec 32)) (i : Nat) : BitVec 32 :=
  if i % 4 = 0 then
    words.getD (i - 4) 0 ^^^ (armSubWord (words.getD (i - 1) 0)).rotateRight 8 ^^^ RCONS.getD (i / 4 - 1) 0
  else words.getD (i - 4) 0 ^^^ words.getD (i - 1) 0

/-- aarch64/block_cipher.rs:79-104 `generate_round_keys`: the 44 words of the zeroed array after the loop,
the first four being the key. -/
def armRoundKeyWords (key : BitVec 128) : List (BitVec 32) :=
  let k := u128ToReg key
  (List.range' 4 40).foldl (fun words i => words.set i (armNextWord words i))
    ([regLane k 0, regLane k 1, regLane k 2, regLane k 3] ++ List.replicate 40 0)

/-- aarch64/block_cipher.rs:83-86: the same memory as registers. -/
def armRoundKeys (key : BitVec 128) : List Reg :=
  let words := armRoundKeyWords key
  (List.range 11).map fun r => fun i => u32Bytes (words.getD (4 * r + i.val / 4) 0) (Fin.ofNat 4 (i.val % 4))

/-- aarch64/block_cipher.rs:112-130 `encrypt`; the `u128` result is only used through its bytes. -/
def armEncrypt (message : Reg) (keys : List Reg) : Reg :=
  let data := message
  let data := (keys.take 9).foldl (fun data key => vaesmcq (vaeseq data key)) data
  let data := vaeseq data (keyAt keys 9)
  xorReg data (keyAt keys 10)

/-- aarch64/block_cipher.rs:21-35 `new`. -/
def armNew (aesDetected neonDetected : Bool) (key : BitVec 128) : Option (List Reg) :=
  if !(aesDetected && neonDetected) then none else some (armRoundKeys key)

/-- aarch64/block_cipher.rs:37-49 `generate_batch`. -/
def armGenerateBatch (m : Build) (roundKeys : List Reg) (ctr : Nat) : Option (List Byte) := do
  let blocks ← (List.range 8).mapM fun i => do
    let c ← m.addU128 ctr i
    pure (List.ofFn (armEncrypt (ctrReg c) roundKeys))
  pure blocks.flatten

/-! ### Software -/

/-- soft/block_cipher.rs:15-20 `new` and 22-34 `generate_batch`, 40-81 `aes_encrypt_many`; `crate128` is
`Aes128::new(key).encrypt_block(block)` of the external crate `aes`. -/
def softGenerateBatch (crate128 : (Fin 16 → Byte) → (Fin 16 → Byte) → (Fin 16 → Byte)) (m : Build)
    (key : BitVec 128) (ctr : Nat) : Option (List Byte) := do
  let m1 ← m.addU128 ctr 0
  let m2 ← m.addU128 ctr 1
  let m3 ← m.addU128 ctr 2
  let m4 ← m.addU128 ctr 3
  let m5 ← m.addU128 ctr 4
  let m6 ← m.addU128 ctr 5
  let m7 ← m.addU128 ctr 6
  let m8 ← m.addU128 ctr 7
  pure (([m1, m2, m3, m4, m5, m6, m7, m8].map fun c => crate128 (u128ToReg key) (ctrReg c)).flatMap List.ofFn)

end Verif.Aes
