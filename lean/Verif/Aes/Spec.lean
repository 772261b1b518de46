/-
AES-128 encryption as specified in FIPS 197, independent of the implementations.
-/
namespace Verif.Aes

abbrev Byte := BitVec 8

/-- A word of four bytes `[a0, a1, a2, a3]` (FIPS 197, 3.5). -/
abbrev Word := Fin 4 → Byte

/-- The state `s[r, c]`, row `r`, column `c` (FIPS 197, 3.4). -/
abbrev State := Fin 4 → Fin 4 → Byte

/-- FIPS 197, 4.2.1: multiplication by `x` in GF(2^8) modulo x^8 + x^4 + x^3 + x + 1. -/
def xtime (b : Byte) : Byte := (b <<< 1) ^^^ (if b.msb then 0x1b#8 else 0#8)

/-- FIPS 197, 4.2: `b • x^i`. -/
def xtimes : Nat → Byte → Byte
  | 0, b => b
  | i + 1, b => xtime (xtimes i b)

/-- FIPS 197, 4.2: multiplication in GF(2^8), the sum of the `a • x^i` over the bits `i` of `b`. -/
def gmul (a b : Byte) : Byte :=
  (List.range 8).foldl (fun acc i => if b.getLsbD i then acc ^^^ xtimes i a else acc) 0#8

/-- FIPS 197, 5.1.1: the affine transformation
`b'_i = b_i + b_(i+4) + b_(i+5) + b_(i+6) + b_(i+7) + c_i`, `c = 63`. -/
def affine (b : Byte) : Byte :=
  b ^^^ b.rotateLeft 4 ^^^ b.rotateLeft 3 ^^^ b.rotateLeft 2 ^^^ b.rotateLeft 1 ^^^ 0x63#8

/-- FIPS 197, figure 7. -/
def sboxTable : List Nat :=
  [
   0x63, 0x7c, 0x77, 0x7b, 0xf2, 0x6b, 0x6f, 0xc5, 0x30, 0x01, 0x67, 0x2b, 0xfe, 0xd7, 0xab, 0x76,
   0xca, 0x82, 0xc9, 0x7d, 0xfa, 0x59, 0x47, 0xf0, 0xad, 0xd4, 0xa2, 0xaf, 0x9c, 0xa4, 0x72, 0xc0,
   0xb7, 0xfd, 0x93, 0x26, 0x36, 0x3f, 0xf7, 0xcc, 0x34, 0xa5, 0xe5, 0xf1, 0x71, 0xd8, 0x31, 0x15,
   0x04, 0xc7, 0x23, 0xc3, 0x18, 0x96, 0x05, 0x9a, 0x07, 0x12, 0x80, 0xe2, 0xeb, 0x27, 0xb2, 0x75,
   0x09, 0x83, 0x2c, 0x1a, 0x1b, 0x6e, 0x5a, 0xa0, 0x52, 0x3b, 0xd6, 0xb3, 0x29, 0xe3, 0x2f, 0x84,
   0x53, 0xd1, 0x00, 0xed, 0x20, 0xfc, 0xb1, 0x5b, 0x6a, 0xcb, 0xbe, 0x39, 0x4a, 0x4c, 0x58, 0xcf,
   0xd0, 0xef, 0xaa, 0xfb, 0x43, 0x4d, 0x33, 0x85, 0x45, 0xf9, 0x02, 0x7f, 0x50, 0x3c, 0x9f, 0xa8,
   0x51, 0xa3, 0x40, 0x8f, 0x92, 0x9d, 0x38, 0xf5, 0xbc, 0xb6, 0xda, 0x21, 0x10, 0xff, 0xf3, 0xd2,
   0xcd, 0x0c, 0x13, 0xec, 0x5f, 0x97, 0x44, 0x17, 0xc4, 0xa7, 0x7e, 0x3d, 0x64, 0x5d, 0x19, 0x73,
   0x60, 0x81, 0x4f, 0xdc, 0x22, 0x2a, 0x90, 0x88, 0x46, 0xee, 0xb8, 0x14, 0xde, 0x5e, 0x0b, 0xdb,
   0xe0, 0x32, 0x3a, 0x0a, 0x49, 0x06, 0x24, 0x5c, 0xc2, 0xd3, 0xac, 0x62, 0x91, 0x95, 0xe4, 0x79,
   0xe7, 0xc8, 0x37, 0x6d, 0x8d, 0xd5, 0x4e, 0xa9, 0x6c, 0x56, 0xf4, 0xea, 0x65, 0x7a, 0xae, 0x08,
   0xba, 0x78, 0x25, 0x2e, 0x1c, 0xa6, 0xb4, 0xc6, 0xe8, 0xdd, 0x74, 0x1f, 0x4b, 0xbd, 0x8b, 0x8a,
   0x70, 0x3e, 0xb5, 0x66, 0x48, 0x03, 0xf6, 0x0e, 0x61, 0x35, 0x57, 0xb9, 0x86, 0xc1, 0x1d, 0x9e,
   0xe1, 0xf8, 0x98, 0x11, 0x69, 0xd9, 0x8e, 0x94, 0x9b, 0x1e, 0x87, 0xe9, 0xce, 0x55, 0x28, 0xdf,
   0x8c, 0xa1, 0x89, 0x0d, 0xbf, 0xe6, 0x42, 0x68, 0x41, 0x99, 0x2d, 0x0f, 0xb0, 0x54, 0xbb, 0x16]

/-- FIPS 197, 5.1.1: the S-box, by its table. `sbox_spec` below shows that it is the multiplicative inverse
(0 for 0) followed by `affine`. -/
def sbox (a : Byte) : Byte := BitVec.ofNat 8 (sboxTable.getD a.toNat 0)

def subBytes (s : State) : State := fun r c => sbox (s r c)

/-- FIPS 197, 5.1.2: row `r` is rotated left by `r`. -/
def shiftRows (s : State) : State := fun r c => s r (c + r)

/-- FIPS 197, 5.1.3. -/
def mixColumns (s : State) : State := fun r c =>
  gmul (s r c) 2 ^^^ gmul (s (r + 1) c) 3 ^^^ s (r + 2) c ^^^ s (r + 3) c

/-- FIPS 197, 5.1.4: column `c` is xored with word `c`. -/
def addRoundKey (s : State) (k : Fin 4 → Word) : State := fun r c => s r c ^^^ k c r

def subWord (w : Word) : Word := fun i => sbox (w i)
def rotWord (w : Word) : Word := fun i => w (i + 1)
def xorWord (v w : Word) : Word := fun i => v i ^^^ w i

/-- FIPS 197, 5.2: `Rcon[i] = [x^(i-1), 0, 0, 0]`. -/
def rcon (i : Nat) : Word := fun j => if j = 0 then xtimes (i - 1) 1#8 else 0#8

/-- FIPS 197, figure 11, the word `w[i]` given the words before it, `Nk = 4`. -/
def nextWord (w : List Word) (i : Nat) : Word :=
  let temp := w.getD (i - 1) (fun _ => 0)
  let temp := if i % 4 = 0 then xorWord (subWord (rotWord temp)) (rcon (i / 4)) else temp
  xorWord (w.getD (i - 4) (fun _ => 0)) temp

/-- FIPS 197, figure 11: the key schedule, `Nb * (Nr + 1) = 44` words. -/
def keyExpansion (key : Fin 16 → Byte) : List Word :=
  (List.range' 4 40).foldl (fun w i => w ++ [nextWord w i])
    [fun j => key (Fin.ofNat 16 j.val), fun j => key (Fin.ofNat 16 (4 + j.val)),
     fun j => key (Fin.ofNat 16 (8 + j.val)), fun j => key (Fin.ofNat 16 (12 + j.val))]

/-- The words `w[4 i .. 4 i + 3]`. -/
def roundKey (w : List Word) (i : Nat) : Fin 4 → Word := fun c => w.getD (4 * i + c.val) (fun _ => 0)

/-- FIPS 197, figure 5: the cipher on a state. -/
def cipher (w : List Word) (s : State) : State :=
  let s := addRoundKey s (roundKey w 0)
  let s := (List.range' 1 9).foldl
    (fun s i => addRoundKey (mixColumns (shiftRows (subBytes s))) (roundKey w i)) s
  addRoundKey (shiftRows (subBytes s)) (roundKey w 10)

/-- FIPS 197, 3.4: `s[r, c] = in[r + 4 c]`, `out[r + 4 c] = s[r, c]`. -/
def toState (b : Fin 16 → Byte) : State := fun r c => b (Fin.ofNat 16 (r.val + 4 * c.val))

def ofState (s : State) : Fin 16 → Byte := fun i => s (Fin.ofNat 4 (i.val % 4)) (Fin.ofNat 4 (i.val / 4))

/-- AES-128: the encryption of the block `m` under `key`. -/
def aes128 (key m : Fin 16 → Byte) : Fin 16 → Byte := ofState (cipher (keyExpansion key) (toState m))

/-- The bytes of a 128-bit integer, least significant first. -/
def leBytes (x : BitVec 128) : Fin 16 → Byte := fun i => x.extractLsb' (8 * i.val) 8

/-- A function on `Fin 16` given by its values. -/
def block (l : List Byte) : Fin 16 → Byte := fun i => l.getD i.val 0

/-- A function on `Fin 4` given by its values. -/
def word (l : List Byte) : Word := fun i => l.getD i.val 0

end Verif.Aes
