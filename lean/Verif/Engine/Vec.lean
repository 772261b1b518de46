import Verif.Lwe.Model
import Verif.Random.Model
/-
Model of the default engine operations on vectors of LWE ciphertexts and of LWE public keys.

Source: /repo/concrete-core/src/backends/default/implementation/engines/default_engine (`default_engine/`)
with the checks of /repo/concrete-core/src/specification/engines (`spec/`). The 32 and 64 bit
implementations are textually identical; both are the instances `R = BitVec 32`, `BitVec 64`.
-/
namespace Verif.Engine
open Verif.Random Verif.Lwe

/-- commons/crypto/lwe/list.rs:17-20 `LweList`: a flat container and the size of one ciphertext. -/
structure LweVec (R : Type) where
  lweSize : Nat
  data : List R
  deriving DecidableEq, Repr

namespace LweVec
variable {R : Type}
/-- lwe/list.rs:177-183 `count`, the `lwe_ciphertext_count` of the entity. -/
def count (v : LweVec R) : Nat := v.data.length / v.lweSize
/-- lwe/list.rs:214-219 `mask_size`, the `lwe_dimension` of the entity. -/
def dim (v : LweVec R) : Nat := v.lweSize - 1
/-- lwe/list.rs:240-250 `ciphertext_iter` (tensor.rs:350-359 `subtensor_iter`). -/
def cts (v : LweVec R) : List (List R) := chunks v.lweSize v.data
end LweVec

/-- A loop `for (mut a, b) in as.iter_mut().zip(bs)`: it stops at the shorter list; `none` is a panic. -/
def forZip {α β : Type} (f : α → β → Option α) : List α → List β → Option (List α)
  | a :: as, b :: bs =>
    match f a b with
    | none => none
    | some a' =>
      match forZip f as bs with
      | none => none
      | some as' => some (a' :: as')
  | as, _ => some as

/-- Write back the ciphertexts of a vector after a loop over them. -/
def LweVec.store {ε R : Type} (v : LweVec R) : Option (List (List R)) → Res ε (LweVec R)
  | none => .panic
  | some l => .ok { v with data := l.flatten }

/-- The errors of the vector engines. -/
inductive VecErr where
  | lweDimensionMismatch | ciphertextCountMismatch | plaintextCountMismatch | cleartextCountMismatch
  deriving DecidableEq, Repr

section
variable {R : Type} [CommRing R]

/-- spec/lwe_ciphertext_vector_discarding_addition.rs:22-32,
default_engine/lwe_ciphertext_vector_discarding_addition.rs:50-77 (64-bit 120-147). -/
def vecDiscardAdd (out a b : LweVec R) : Res VecErr (LweVec R) :=
  if out.dim ≠ a.dim ∨ out.dim ≠ b.dim then .err .lweDimensionMismatch
  else if out.count ≠ a.count ∨ out.count ≠ b.count then .err .ciphertextCountMismatch
  else out.store (forZip (fun o p => (fillWithCopy o p.1).map fun o => updateWithAdd o p.2)
    out.cts (a.cts.zip b.cts))

/-- spec/lwe_ciphertext_vector_discarding_subtraction.rs:22-32,
default_engine/lwe_ciphertext_vector_discarding_subtraction.rs:50-77 (64-bit 120-147). -/
def vecDiscardSub (out a b : LweVec R) : Res VecErr (LweVec R) :=
  if out.dim ≠ a.dim ∨ out.dim ≠ b.dim then .err .lweDimensionMismatch
  else if out.count ≠ a.count ∨ out.count ≠ b.count then .err .ciphertextCountMismatch
  else out.store (forZip (fun o p => (fillWithCopy o p.1).map fun o => updateWithSub o p.2)
    out.cts (a.cts.zip b.cts))

/-- spec/lwe_ciphertext_vector_fusing_addition.rs:21-28,
default_engine/lwe_ciphertext_vector_fusing_addition.rs:45-67 (64-bit 106-128). -/
def vecFuseAdd (out a : LweVec R) : Res VecErr (LweVec R) :=
  if a.dim ≠ out.dim then .err .lweDimensionMismatch
  else if a.count ≠ out.count then .err .ciphertextCountMismatch
  else out.store (forZip (fun o p => some (updateWithAdd o p)) out.cts a.cts)

/-- spec/lwe_ciphertext_vector_fusing_subtraction.rs:21-28,
default_engine/lwe_ciphertext_vector_fusing_subtraction.rs:45-67 (64-bit 106-128). -/
def vecFuseSub (out a : LweVec R) : Res VecErr (LweVec R) :=
  if a.dim ≠ out.dim then .err .lweDimensionMismatch
  else if a.count ≠ out.count then .err .ciphertextCountMismatch
  else out.store (forZip (fun o p => some (updateWithSub o p)) out.cts a.cts)

/-- spec/lwe_ciphertext_vector_plaintext_vector_discarding_addition.rs:32-41,
default_engine/lwe_ciphertext_vector_plaintext_vector_discarding_addition.rs:21-59: a loop that copies
the inputs, then a loop that adds the plaintexts to the bodies. -/
def vecAddPlaintext (out a : LweVec R) (ps : List R) : Res VecErr (LweVec R) :=
  if a.dim ≠ out.dim then .err .lweDimensionMismatch
  else if out.count ≠ a.count then .err .ciphertextCountMismatch
  else if a.count ≠ ps.length then .err .plaintextCountMismatch
  else out.store (match forZip (fun o p => fillWithCopy o p) out.cts a.cts with
    | none => none
    | some l => forZip (fun o p => addToBody o p) l ps)

/-- default_engine/lwe_ciphertext_vector_cleartext_vector_discarding_multiplication.rs:46-53: the loop of
the multiplication; the cleartexts come from a separate iterator, whose exhaustion panics. -/
def mulCleartextLoop : List (List R) → List (List R) → List R → Option (List (List R))
  | o :: os, a :: as, cs =>
    match cs with
    | [] => none
    | c :: cs =>
      match mulCleartextLoop os as cs with
      | none => none
      | some l => some (fillWithScalarMul o a c :: l)
  | os, _, _ => some os

/-- spec/lwe_ciphertext_vector_cleartext_vector_discarding_multiplication.rs:26-32,
default_engine/lwe_ciphertext_vector_cleartext_vector_discarding_multiplication.rs:20-54. -/
def vecMulCleartext (out a : LweVec R) (cs : List R) : Res VecErr (LweVec R) :=
  if out.dim ≠ a.dim then .err .lweDimensionMismatch
  else if a.count ≠ cs.length then .err .cleartextCountMismatch
  else out.store (mulCleartextLoop out.cts a.cts cs)

end

/-! ### Public keys -/

/-- The errors of public key generation and encryption. -/
inductive PkErr where
  | nullPublicKeyZeroEncryptionCount | lweDimensionMismatch
  deriving DecidableEq, Repr

variable {w : Nat}

/-- default_engine/lwe_ciphertext_vector_zero_encryption.rs:58-77: `count` encryptions of zero. -/
def zeroEncryptVec (f : GaussianFn w) (key : List (BitVec w)) (count : Nat) (g : EncGen) :
    Option (LweVec (BitVec w) × EncGen) :=
  match encryptLweList f key (key.length + 1) (List.replicate ((key.length + 1) * count) 0)
    (List.replicate count 0) g with
  | none => none
  | some (d, g') => some ({ lweSize := key.length + 1, data := d }, g')

/-- spec/lwe_public_key_generation.rs:16-19, default_engine/lwe_public_key_generation.rs:48-76 (64-bit
116-144). -/
def generatePublicKey (f : GaussianFn w) (key : List (BitVec w)) (count : Nat) (g : EncGen) :
    Res PkErr (LweVec (BitVec w) × EncGen) :=
  if count = 0 then .err .nullPublicKeyZeroEncryptionCount
  else match zeroEncryptVec f key count g with
    | none => .panic
    | some r => .ok r

/-- default_engine/lwe_ciphertext_discarding_public_key_encryption.rs:84-90: the chosen encryptions of
zero are added. -/
def addChosen (out : List (BitVec w)) : List (BitVec w) → List (List (BitVec w)) → List (BitVec w)
  | c :: cs, ct :: cts => addChosen (if c = 1 then updateWithAdd out ct else out) cs cts
  | _, _ => out

/-- spec/lwe_ciphertext_discarding_public_key_encryption.rs:20-23,
default_engine/lwe_ciphertext_discarding_public_key_encryption.rs:58-91 (64-bit 141-174). `g` is the
secret generator of the engine, which draws the choice (secret/generators/secret.rs:23-28). -/
def publicEncrypt (pk : LweVec (BitVec w)) (out : List (BitVec w)) (msg : BitVec w) (g : Src) :
    Res PkErr (List (BitVec w) × Src) :=
  if pk.dim ≠ lweDim out then .err .lweDimensionMismatch
  else match fillWithTrivialEncryption out msg with
    | none => .panic
    | some o =>
      match rep pk.count (uniformBinary w) g with
      | none => .panic
      | some (choice, g') => .ok (addChosen o choice pk.cts, g')

end Verif.Engine
