import Verif.Lwe.Model
import Verif.Pbs.Model
/-
Programs that a server runs on LWE ciphertexts with the engines: linear operations, keyswitches and programmable
bootstraps, in any order and number.

Source: the engine calls below, in /repo/concrete-core/src/backends/default/implementation/engines/default_engine
(`default_engine/`), backends/fft/implementation/engines/fft_engine/lwe_ciphertext_discarding_bootstrap.rs and
backends/ntt/private/crypto/bootstrap/ntt/mod.rs. The checked functions are
used for the linear operations.
-/
namespace Verif.Circuit
open Verif.Pbs

variable {w : Nat}

/-- What a server needs: the parameters and the evaluation keys. `bk`, `lk` are the base log and level count of the
keyswitching key; `b`, `l` those of the bootstrapping key. -/
structure Server (w : Nat) where
  T : Transform w
  logN : Nat
  k : Nat
  b : Nat
  l : Nat
  bk : Nat
  lk : Nat
  /-- dimension of the small LWE key -/
  n : Nat
  ksk : List (BitVec w)
  bsk : List (BitVec w)

/-- Polynomial size. -/
def Server.N (S : Server w) : Nat := 2 ^ S.logN

/-- One step of a program on a file of registers, each holding a ciphertext. -/
inductive Instr where
  /-- default_engine/lwe_ciphertext_discarding_addition.rs:47-69 -/
  | add (d a b : Nat)
  /-- default_engine/lwe_ciphertext_fusing_addition.rs:42-58 -/
  | addInto (d a : Nat)
  /-- default_engine/lwe_ciphertext_discarding_subtraction.rs:44-66 -/
  | sub (d a b : Nat)
  /-- default_engine/lwe_ciphertext_fusing_subtraction.rs:42-58 -/
  | subInto (d a : Nat)
  /-- default_engine/lwe_ciphertext_discarding_opposite.rs:44-61 -/
  | neg (d a : Nat)
  /-- default_engine/lwe_ciphertext_fusing_opposite.rs:39-49 -/
  | negInto (d : Nat)
  /-- default_engine/lwe_ciphertext_cleartext_discarding_multiplication.rs:53-73 -/
  | mul (d a : Nat) (c : Int)
  /-- default_engine/lwe_ciphertext_cleartext_fusing_multiplication.rs:46-61 -/
  | mulInto (d : Nat) (c : Int)
  /-- default_engine/lwe_ciphertext_plaintext_discarding_addition.rs:46-68 -/
  | addPlain (d a : Nat) (m : Int)
  /-- default_engine/lwe_ciphertext_plaintext_fusing_addition.rs:43-58 -/
  | addPlainInto (d : Nat) (m : Int)
  /-- default_engine/lwe_ciphertext_plaintext_discarding_subtraction.rs:47-69 -/
  | subPlain (d a : Nat) (m : Int)
  /-- default_engine/lwe_ciphertext_plaintext_fusing_subtraction.rs:43-58 -/
  | subPlainInto (d : Nat) (m : Int)
  /-- default_engine/lwe_ciphertext_trivial_encryption.rs:44-51 -/
  | trivial (d : Nat) (m : Int)
  /-- default_engine/lwe_ciphertext_discarding_keyswitch.rs:58-76 into a new ciphertext, then the discarding bootstrap
  into `d` with the accumulator of `table` (default_engine/glwe_ciphertext_trivial_encryption.rs:41-57) -/
  | lookup (d a : Nat) (table : List Int)
  deriving DecidableEq, Repr

/-- The result of a checked call; an error or a panic stops the program. -/
def ofRes {ε α : Type} : Res ε α → Option α
  | .ok a => some a
  | _ => none

/-- The value of the table at `x` modulo `2 p`, where `p` is the size of the table: an accumulator is negacyclic, so
the second half holds the opposites of the first one. -/
def tableAt (p : Nat) (t : List Int) (x : Nat) : Int :=
  if x % (2 * p) < p then t.getD (x % (2 * p)) 0 else -t.getD (x % (2 * p) - p) 0

/-- The polynomial of an accumulator, as built by the user: coefficient `j` is the value of the table at the message
nearest to `j p / N`. -/
def lutPoly (w N p : Nat) (delta : Int) (t : List Int) : List (BitVec w) :=
  (List.range N).map fun j => ((delta * tableAt p t ((2 * (j * p) + N) / (2 * N)) : Int) : BitVec w)

/-- default_engine/lwe_ciphertext_discarding_keyswitch.rs:58-76. -/
def Server.keyswitch (S : Server w) (ct : List (BitVec w)) : Option (List (BitVec w)) :=
  Lwe.keyswitchCiphertext S.bk S.lk (S.n + 1) S.ksk (List.replicate (S.n + 1) 0) ct

/-- fft_engine/lwe_ciphertext_discarding_bootstrap.rs:81-115, ntt/private/crypto/bootstrap/ntt/mod.rs:654-681
(equal: `Verif.Pbs.cmuxNtt_eq`). -/
def Server.bootstrap (S : Server w) (out ct acc : List (BitVec w)) : Option (List (BitVec w)) :=
  Pbs.bootstrap (cmuxFft S.T S.N S.k S.b S.l) S.N S.logN out ct acc (bskGgsws S.T S.N S.k S.l S.bsk)

/-- The new content of the destination register of an instruction; `delta` is the scale of the messages. -/
def value (S : Server w) (p : Nat) (delta : Int) (regs : List (List (BitVec w))) : Instr → Option (List (BitVec w))
  | .add d a b => do ofRes (Lwe.discardAdd (← regs[d]?) (← regs[a]?) (← regs[b]?))
  | .addInto d a => do ofRes (Lwe.fuseAdd (← regs[d]?) (← regs[a]?))
  | .sub d a b => do ofRes (Lwe.discardSub (← regs[d]?) (← regs[a]?) (← regs[b]?))
  | .subInto d a => do ofRes (Lwe.fuseSub (← regs[d]?) (← regs[a]?))
  | .neg d a => do ofRes (Lwe.discardOpp (← regs[d]?) (← regs[a]?))
  | .negInto d => do ofRes (Lwe.fuseOpp (← regs[d]?))
  | .mul d a c => do ofRes (Lwe.discardMulCleartext (← regs[d]?) (← regs[a]?) (c : BitVec w))
  | .mulInto d c => do ofRes (Lwe.fuseMulCleartext (← regs[d]?) (c : BitVec w))
  | .addPlain d a m => do ofRes (Lwe.discardAddPlaintext (← regs[d]?) (← regs[a]?) ((delta * m : Int) : BitVec w))
  | .addPlainInto d m => do ofRes (Lwe.fuseAddPlaintext (← regs[d]?) ((delta * m : Int) : BitVec w))
  | .subPlain d a m => do ofRes (Lwe.discardSubPlaintext (← regs[d]?) (← regs[a]?) ((delta * m : Int) : BitVec w))
  | .subPlainInto d m => do ofRes (Lwe.fuseSubPlaintext (← regs[d]?) ((delta * m : Int) : BitVec w))
  | .trivial _ m => Lwe.trivialEncrypt (S.k * S.N + 1) ((delta * m : Int) : BitVec w)
  | .lookup d a t => do
    let small ← S.keyswitch (← regs[a]?)
    S.bootstrap (← regs[d]?) small (Glwe.newTrivialGlwe S.k (lutPoly w S.N p delta t))

/-- The register written. -/
def Instr.dest : Instr → Nat
  | .add d .. | .addInto d .. | .sub d .. | .subInto d .. | .neg d .. | .negInto d | .mul d .. | .mulInto d ..
  | .addPlain d .. | .addPlainInto d .. | .subPlain d .. | .subPlainInto d .. | .trivial d .. | .lookup d .. => d

/-- One step. -/
def step (S : Server w) (p : Nat) (delta : Int) (i : Instr) (regs : List (List (BitVec w))) :
    Option (List (List (BitVec w))) :=
  (value S p delta regs i).map (regs.set i.dest)

/-- A program. -/
def exec (S : Server w) (p : Nat) (delta : Int) : List Instr → List (List (BitVec w)) → Option (List (List (BitVec w)))
  | [], regs => some regs
  | i :: is, regs => (step S p delta i regs).bind (exec S p delta is)

end Verif.Circuit
