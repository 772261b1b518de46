import Verif.Circuit.Model
import Verif.Lwe.Spec
import Verif.Pbs.Spec
import Verif.Decomp.Spec
/-
What a program means on messages, and the bound on the noise of each register. Nothing here refers to ciphertexts,
except `Holds`.
-/
namespace Verif.Circuit

variable {w : Nat}

/-- The value of a table of `p` entries at any integer: messages are meant modulo `2 p`; the messages from `p` to
`2 p - 1` are mapped to the opposites of the entries, because a bootstrap is negacyclic. -/
def lookupInt (p : Nat) (t : List Int) (x : Int) : Int :=
  if x % (2 * p) < p then t.getD (x % (2 * p)).toNat 0 else -t.getD (x % (2 * p) - p).toNat 0

/-- The message computed by an instruction, on integers; messages are meant modulo `2 p`. -/
def clearValue (p : Nat) (ms : List Int) : Instr → Int
  | .add _ a b => ms.getD a 0 + ms.getD b 0
  | .addInto d a => ms.getD d 0 + ms.getD a 0
  | .sub _ a b => ms.getD a 0 - ms.getD b 0
  | .subInto d a => ms.getD d 0 - ms.getD a 0
  | .neg _ a => -ms.getD a 0
  | .negInto d => -ms.getD d 0
  | .mul _ a c => ms.getD a 0 * c
  | .mulInto d c => ms.getD d 0 * c
  | .addPlain _ a m => ms.getD a 0 + m
  | .addPlainInto d m => ms.getD d 0 + m
  | .subPlain _ a m => ms.getD a 0 - m
  | .subPlainInto d m => ms.getD d 0 - m
  | .trivial _ m => m
  | .lookup _ a t => lookupInt p t (ms.getD a 0)

/-- A program on messages. -/
def clear (p : Nat) : List Instr → List Int → List Int
  | [], ms => ms
  | i :: is, ms => clear p is (ms.set i.dest (clearValue p ms i))

/-- The noise bound after an instruction; `none` if a register does not exist or if the noise is too large for a
lookup: keyswitch (`KS`), modulus switch (`Q`) and the input must stay below half a step. A lookup resets the noise
to that of the bootstrap (`P`). -/
def noiseValue (delta KS Q P : Int) (bs : List Int) : Instr → Option Int
  | .add d a b | .sub d a b => do let _ ← bs[d]?; some ((← bs[a]?) + (← bs[b]?))
  | .addInto d a | .subInto d a => do some ((← bs[d]?) + (← bs[a]?))
  | .neg d a => do let _ ← bs[d]?; bs[a]?
  | .negInto d => bs[d]?
  | .mul d a c => do let _ ← bs[d]?; some ((← bs[a]?) * |c|)
  | .mulInto d c => do some ((← bs[d]?) * |c|)
  | .addPlain d a _ | .subPlain d a _ => do let _ ← bs[d]?; bs[a]?
  | .addPlainInto d _ | .subPlainInto d _ => bs[d]?
  | .trivial d _ => do let _ ← bs[d]?; some 0
  | .lookup d a _ => do
    let _ ← bs[d]?
    let x ← bs[a]?
    if 2 * (x + KS + Q) < delta then some P else none

/-- The noise bounds after a program. -/
def noise (delta KS Q P : Int) : List Instr → List Int → Option (List Int)
  | [], bs => some bs
  | i :: is, bs => (noiseValue delta KS Q P bs i).bind fun x => noise delta KS Q P is (bs.set i.dest x)

/-- Ciphertext `ct` encrypts the message `m` at scale `delta` under `key`, with a noise of at most `bound`. -/
def Holds (key : List (BitVec w)) (delta : Int) (ct : List (BitVec w)) (m bound : Int) : Prop :=
  Lwe.Fits key ct ∧ ∃ e : Int, |e| ≤ bound ∧ Lwe.phase key ct = ((delta * m + e : Int) : BitVec w)

/-- Every register holds its message within its bound. -/
def AllHold (key : List (BitVec w)) (delta : Int) (regs : List (List (BitVec w))) (ms bs : List Int) : Prop :=
  regs.length = ms.length ∧ regs.length = bs.length ∧
  ∀ (i : Nat) (ct : List (BitVec w)) (m b : Int), regs[i]? = some ct → ms[i]? = some m → bs[i]? = some b → Holds key delta ct m b

/-- `S` holds evaluation keys for `big` (the key of the registers) and `small` (the key between a keyswitch and a
bootstrap): row `j` of block `i` of the keyswitching key encrypts `big[i] 2^(w - bk (j+1))` under `small` with an error
of at most `Bk`, GGSW `i` of the bootstrapping key encrypts `small[i]` under `big` with errors of at most `E`. `B` bounds
the rounding error of the transform. -/
structure Serves (S : Server w) (small big : List (BitVec w)) (B E : Int) (Bk : Nat) : Prop where
  size : S.logN + 2 < w
  gadget : Decomp.ValidParams w S.b S.l
  kgadget : Decomp.ValidParams w S.bk S.lk
  transform : S.T.Accurate S.N (S.l * (S.k + 1)) (2 ^ (S.b - 1)) B
  nonneg : 0 ≤ B ∧ 0 ≤ E
  smallLen : small.length = S.n
  bigLen : Glwe.KeyFits S.N S.k big
  smallBin : Lwe.BinaryKey small
  bigBin : Lwe.BinaryKey big
  bskEnc : Pbs.BskEnc S.N S.k S.b S.l small big S.bsk E
  kskLen : S.ksk.length = big.length * (S.lk * (S.n + 1))
  kskEnc : ∀ i, i < big.length → ∀ j, j < S.lk → ∃ e : Int, |e| ≤ Bk ∧
    Lwe.phase small (block (S.n + 1) S.ksk (i * S.lk + j)) =
      big.getD i 0 * ((2 ^ (w - S.bk * (j + 1)) : Nat) : BitVec w) + (e : BitVec w)

/-- The noise added by a keyswitch. -/
def ksBound (S : Server w) (Bk : Nat) : Int :=
  (S.k * S.N : Nat) * 2 ^ (w - S.bk * S.lk - 1) + (S.k * S.N : Nat) * S.lk * 2 ^ (S.bk - 1) * Bk

/-- The noise added by the switch to the modulus `2 N`. -/
def switchBound (S : Server w) (small : List (BitVec w)) : Int := (1 + Pbs.weight small) * 2 ^ (w - S.logN - 2)

/-- The noise of a bootstrapped ciphertext. -/
def pbsBound (S : Server w) (B E : Int) : Int := S.n * Pbs.epBound w S.N S.k S.b S.l 1 E B 1

/-- Decoding: the multiple of `2^k = delta` nearest to a plaintext. -/
def decode (k : Nat) (x : BitVec w) : Nat := (x.toNat + 2 ^ k / 2) / 2 ^ k % 2 ^ (w - k)

end Verif.Circuit
