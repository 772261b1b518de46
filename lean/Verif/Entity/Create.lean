import Verif.Entity.Model
/-
Model of the creation and consuming retrieval engines of the default backend.
Sources: /repo/concrete-core/src/backends/default/implementation/engines/default_engine/
{lwe_ciphertext,lwe_ciphertext_vector,glwe_ciphertext,glwe_ciphertext_vector,lwe_bootstrap_key,
lwe_keyswitch_key,plaintext_vector,cleartext_vector}_creation.rs and the matching retrieval files. The
implementations for the two precisions and for owned containers, views and mutable views are the same code.
-/
namespace Verif.Entity

open Verif.Engine

variable {α : Type}

/-- `perform_generic_checks(..)?; Ok(unsafe { ..._unchecked(..) })`. -/
def afterChecks {β : Type} (c : Res EErr Unit) (o : Option β) : Res EErr β :=
  match c with
  | .ok _ =>
    match o with
    | some x => .ok x
    | none => .panic
  | .err e => .err e
  | .panic => .panic

/-- lwe_ciphertext_creation.rs:33-46. The ciphertext is its container. -/
def createLweCiphertext (cont : List α) : Res EErr (List α) :=
  afterChecks (Checks.lweCiphertextCreation cont.length) (some cont)

/-- entities/lwe_ciphertext.rs:15-17 `lwe_dimension`. -/
def lweCiphertextDimension (m : Build) (ct : List α) : Option Nat := subU m ct.length 1

/-- lwe_ciphertext_consuming_retrieval.rs:38-50. -/
def retrieveLweCiphertext (ct : List α) : List α := ct

/-- lwe_ciphertext_vector_creation.rs:40-57. -/
def createLweVector (m : Build) (cont : List α) (lweSize : Nat) : Res EErr (LweList α) :=
  afterChecks (Checks.lweCiphertextVectorCreation cont.length) (LweList.fromContainer m cont lweSize)

/-- lwe_ciphertext_vector_consuming_retrieval.rs:45-57. -/
def retrieveLweVector (x : LweList α) : List α := x.tensor

/-- glwe_ciphertext_creation.rs:38-59. -/
def createGlweCiphertext (cont : List α) (polySize : Nat) : Res EErr (GlweCiphertext α) :=
  afterChecks (Checks.glweCiphertextCreation cont.length polySize)
    (some (GlweCiphertext.fromContainer cont polySize))

/-- glwe_ciphertext_consuming_retrieval.rs:42-54. -/
def retrieveGlweCiphertext (x : GlweCiphertext α) : List α := x.tensor

/-- glwe_ciphertext_vector_creation.rs:48-79; `to_glwe_size` adds one. -/
def createGlweVector (m : Build) (cont : List α) (glweDim polySize : Nat) : Res EErr (GlweList α) :=
  match addUsize m glweDim 1 with
  | none => .panic
  | some glweSize =>
    afterChecks (Checks.glweCiphertextVectorCreation m cont.length polySize glweSize)
      (GlweList.fromContainer m cont glweDim polySize)

/-- glwe_ciphertext_vector_consuming_retrieval.rs:51-63. -/
def retrieveGlweVector (x : GlweList α) : List α := x.tensor

/-- lwe_bootstrap_key_creation.rs:52-95, with `modLog` 32 or 64. -/
def createBootstrapKey (m : Build) (modLog : Nat) (cont : List α) (glweSize polySize baseLog level : Nat) :
    Res EErr (BootstrapKey α) :=
  afterChecks (Checks.lweBootstrapKeyCreation m cont.length glweSize polySize baseLog level modLog)
    (BootstrapKey.fromContainer m cont glweSize polySize level baseLog)

/-- lwe_bootstrap_key_consuming_retrieval.rs:50-62. -/
def retrieveBootstrapKey (x : BootstrapKey α) : List α := x.tensor

/-- lwe_keyswitch_key_creation.rs:57-95, with `modLog` 32 or 64. -/
def createKeyswitchKey (m : Build) (modLog : Nat) (cont : List α) (outDim baseLog level : Nat) :
    Res EErr (KeyswitchKey α) :=
  afterChecks (Checks.lweKeyswitchKeyCreation m cont.length outDim baseLog level modLog)
    (KeyswitchKey.fromContainer m cont baseLog level outDim)

/-- lwe_keyswitch_key_consuming_retrieval.rs:51-63. -/
def retrieveKeyswitchKey (x : KeyswitchKey α) : List α := x.tensor

/-- plaintext_vector_creation.rs:30-45; cleartext_vector_creation.rs the same. The vector is its
container, copied. -/
def createPlaintextVector (input : List α) : Res EErr (List α) :=
  if input.isEmpty then .err .emptyInput else .ok input

/-- plaintext_vector_discarding_retrieval.rs:34-50 (`copy_from_slice`); the cleartext version is the same. -/
def discardRetrievePlaintextVector (output input : List α) : Res EErr (List α) :=
  if output.length ≠ input.length then .err .plaintextCountMismatch else .ok input

end Verif.Entity
