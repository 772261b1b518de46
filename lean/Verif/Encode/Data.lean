import Verif.Encode.Model
import Verif.Engine.Checks
import Verif.Tensor.Model
/-
Model of the calls that move cleartexts and plaintexts in and out of the entities of the default engine, and of the
remaining encoders.

Sources, under /repo/concrete-core/src: backends/default/implementation/engines/default_engine/,
commons/crypto/encoding/{encoder, cleartext, plaintext}.rs, specification/engines/ (spec below).

A cleartext or plaintext is its value, a vector is the list of its values (encoding/cleartext.rs:51-55, 67-72 and
encoding/plaintext.rs:57-61, 77-82: `from_container` and `count`). The calls for `u32`, `u64` and `f64` have the same text;
`α` is the type of the values.
-/
namespace Verif.Encode
open Verif.Float Verif.Engine

variable {α : Type}

/-- default_engine/cleartext_creation.rs:28-37, 61-70, 94-103 and default_engine/plaintext_creation.rs:28-37, 62-71. -/
def createValue (x : α) : Res EErr α := .ok x

/-- default_engine/cleartext_retrieval.rs:30-39, 66-75, 102-111 and default_engine/plaintext_retrieval.rs:30-39, 67-76. -/
def retrieveValue (x : α) : Res EErr α := .ok x

/-- default_engine/cleartext_discarding_retrieval.rs:33-48, 76-91, 119-134 and default_engine/plaintext_discarding_retrieval.rs:33-48, 74-89: the
new content of the output. -/
def retrieveValueInto (_out x : α) : Res EErr α := .ok x

/-- default_engine/cleartext_vector_creation.rs:30-43, 69-82, 108-121. -/
def createCleartextVector (xs : List α) : Res EErr (List α) :=
  match Checks.cleartextVectorCreation ⟨xs.length⟩ with
  | .ok _ => .ok xs
  | .err e => .err e
  | .panic => .panic

/-- default_engine/plaintext_vector_creation.rs:30-45, 72-87. -/
def createPlaintextVector (xs : List α) : Res EErr (List α) :=
  match Checks.plaintextVectorCreation ⟨xs.length⟩ with
  | .ok _ => .ok xs
  | .err e => .err e
  | .panic => .panic

/-- default_engine/cleartext_vector_retrieval.rs:33-45, 72-84, 111-123 and default_engine/plaintext_vector_retrieval.rs:33-45, 73-85. -/
def retrieveVector (v : List α) : Res EErr (List α) := .ok v

/-- `<[T]>::copy_from_slice`: a panic when the lengths differ. -/
def copyFromSlice (out src : List α) : Option (List α) := if out.length = src.length then some src else none

/-- default_engine/cleartext_vector_discarding_retrieval.rs:44-50, 88-94, 132-138 and
default_engine/plaintext_vector_discarding_retrieval.rs:44-50, 89-95: the `_unchecked` calls. -/
def retrieveVectorIntoUnchecked (out v : List α) : Res EErr (List α) :=
  match copyFromSlice out v with
  | some r => .ok r
  | none => .panic

/-- default_engine/cleartext_vector_discarding_retrieval.rs:34-42, 78-86, 122-130. -/
def retrieveCleartextVectorInto (out v : List α) : Res EErr (List α) :=
  match Checks.cleartextVectorDiscardingRetrieval ⟨out.length⟩ ⟨v.length⟩ with
  | .ok _ => retrieveVectorIntoUnchecked out v
  | .err e => .err e
  | .panic => .panic

/-- default_engine/plaintext_vector_discarding_retrieval.rs:34-42, 79-87. -/
def retrievePlaintextVectorInto (out v : List α) : Res EErr (List α) :=
  match Checks.plaintextVectorDiscardingRetrieval ⟨out.length⟩ ⟨v.length⟩ with
  | .ok _ => retrieveVectorIntoUnchecked out v
  | .err e => .err e
  | .panic => .panic

/-! ### `RealEncoder` -/

/-- encoder.rs:91-96 `RealEncoder`, with `T = f64`. -/
structure RealEncoder where
  offset : F64
  delta : F64

/-- encoder.rs:104-108 `encode`. -/
def RealEncoder.encode (w : Nat) (e : RealEncoder) (raw : F64) : BitVec w :=
  fromTorus w ((raw.sub e.offset).div e.delta)

/-- encoder.rs:109-114 `decode`. -/
def RealEncoder.decode {w : Nat} (e : RealEncoder) (encoded : BitVec w) : F64 :=
  ((intoTorus encoded).mul e.delta).add e.offset

/-- encoder.rs:61-72 `encode_list` for the encoding `f` of an encoder (`none`: a panic). -/
def encodeList {w : Nat} (m : Build) (f : F64 → Option (BitVec w)) (encoded : List (BitVec w)) (raw : List F64) :
    Option (List (BitVec w)) := Tensor.fillWithOne m f encoded raw

/-- encoder.rs:77-87 `decode_list`. -/
def decodeList {w : Nat} (m : Build) (f : BitVec w → Option F64) (raw : List F64) (encoded : List (BitVec w)) :
    Option (List F64) := Tensor.fillWithOne m f raw encoded

end Verif.Encode
