import Verif.Entity.Create
import Verif.Tensor.Model
import Verif.Glwe.Model
import Verif.Pks.Model
/-
C105: the checked calls of the default engine for sample extraction, the packing keyswitches, the conversions of
keys into views and the trivial encryption of GGSW ciphertexts, on the entities of Entity/Model.lean.

Sources: /repo/concrete-core/src/backends/default/implementation/engines/default_engine/ (`default_engine/`). The
implementations for the two precisions are the same code. A call returns the new output; the checks come before
the first write, so that a call that returns an error leaves its output as it was.
-/
namespace Verif.Entity

open Verif.Engine

variable {w : Nat}

/-- default_engine/lwe_ciphertext_discarding_extraction.rs:62-81, 138-157 `discard_extract_lwe_ciphertext`. -/
def discardExtract (m : Build) (out : List (BitVec w)) (inp : GlweCiphertext (BitVec w)) (nth : Nat) :
    Res EErr (List (BitVec w)) :=
  match lweCiphertextDimension m out, inp.maskSize m with
  | some n, some k =>
    afterChecks (Checks.lweCiphertextDiscardingExtraction ⟨n⟩ ⟨k, inp.polySize⟩ nth)
      (Glwe.sampleExtract inp.polySize inp.tensor out nth)
  | _, _ => .panic

/-- default_engine/lwe_ciphertext_vector_glwe_ciphertext_discarding_packing_keyswitch.rs:70-95, 157-182
`discard_packing_keyswitch_lwe_ciphertext_vector`. -/
def discardPackingKeyswitch (m : Build) (out : GlweCiphertext (BitVec w)) (inp : LweList (BitVec w))
    (ksk : PackingKey (BitVec w)) : Res EErr (GlweCiphertext (BitVec w)) :=
  match inp.maskSize m, inp.count m, ksk.inputDimension m, out.maskSize m, ksk.outputDimension m with
  | some n, some c, some n', some k, some k' =>
    afterChecks (Checks.lweCiphertextVectorGlweCiphertextDiscardingPackingKeyswitch ⟨k, out.polySize⟩ ⟨n, c⟩
        ⟨n', k', ksk.polySize, 0⟩)
      ((Pks.packingKeyswitch m ksk.baseLog ksk.levelCount ksk.polySize k' inp.lweSize ksk.tensor out.tensor
        inp.tensor).map fun t => { out with tensor := t })
  | _, _, _, _, _ => .panic

/-- default_engine/lwe_ciphertext_vector_glwe_ciphertext_discarding_private_functional_packing_keyswitch.rs:76-108,
176-208 `discard_private_functional_packing_keyswitch_lwe_ciphertext_vector`. -/
def discardPrivatePackingKeyswitch (m : Build) (out : GlweCiphertext (BitVec w)) (inp : LweList (BitVec w))
    (ksk : PackingKey (BitVec w)) : Res EErr (GlweCiphertext (BitVec w)) :=
  match inp.maskSize m, inp.count m, ksk.inputDimensionPrivate m, out.maskSize m, ksk.outputDimension m with
  | some n, some c, some n', some k, some k' =>
    afterChecks (Checks.lweCiphertextVectorGlweCiphertextDiscardingPrivateFunctionalPackingKeyswitch
        ⟨k, out.polySize⟩ ⟨n, c⟩ ⟨n', k', ksk.polySize, 0⟩)
      ((Pks.privatePackingKeyswitch m ksk.baseLog ksk.levelCount ksk.polySize k' inp.lweSize ksk.tensor out.tensor
        inp.tensor).map fun t => { out with tensor := t })
  | _, _, _, _, _ => .panic

/-- entities/lwe_bootstrap_key.rs: the dimensions of a bootstrap key. -/
def BootstrapKey.dims (m : Build) (x : BootstrapKey (BitVec w)) : Option M.Bsk := do
  let n ← x.keySize m
  let k ← subU m x.glweSize 1
  some ⟨n, k, x.polySize, x.levelCount, x.baseLog⟩

/-- default_engine/lwe_bootstrap_key_discarding_conversion.rs:75-91, 159-175 `discard_convert_lwe_bootstrap_key` into a
mutable view. -/
def discardConvertBsk (m : Build) (out inp : BootstrapKey (BitVec w)) : Res EErr (BootstrapKey (BitVec w)) :=
  match out.dims m, inp.dims m with
  | some o, some i =>
    afterChecks (Checks.lweBootstrapKeyDiscardingConversion o i)
      ((Tensor.fillWithCopy out.tensor inp.tensor).map fun t => { out with tensor := t })
  | _, _ => .panic

/-- entities/lwe_keyswitch_key.rs: the dimensions of a keyswitch key. -/
def KeyswitchKey.dims (m : Build) (x : KeyswitchKey (BitVec w)) : Option M.Ksk := do
  let n ← x.inputDimension m
  let n' ← x.outputDimension m
  some ⟨n, n', x.levelCount, x.baseLog⟩

/-- default_engine/lwe_keyswitch_key_discarding_conversion.rs:73-89, 155-171 `discard_convert_lwe_keyswitch_key` into a
mutable view. -/
def discardConvertKsk (m : Build) (out inp : KeyswitchKey (BitVec w)) : Res EErr (KeyswitchKey (BitVec w)) :=
  match out.dims m, inp.dims m with
  | some o, some i =>
    afterChecks (Checks.lweKeyswitchKeyDiscardingConversion o i)
      ((Tensor.fillWithCopy out.tensor inp.tensor).map fun t => { out with tensor := t })
  | _, _ => .panic

/-- default_engine/lwe_ciphertext_discarding_keyswitch.rs:58-77, 127-146, views 212-231, 297-316
`discard_keyswitch_lwe_ciphertext`. -/
def discardKeyswitch (m : Build) (out inp : List (BitVec w)) (ksk : KeyswitchKey (BitVec w)) :
    Res EErr (List (BitVec w)) :=
  match lweCiphertextDimension m out, lweCiphertextDimension m inp, ksk.dims m with
  | some o, some i, some d =>
    afterChecks (Checks.lweCiphertextDiscardingKeyswitch ⟨o⟩ ⟨i⟩ d)
      (Lwe.keyswitchCiphertext ksk.baseLog ksk.levelCount ksk.lweSize ksk.tensor out inp)
  | _, _, _ => .panic

/-- ggsw/standard.rs:516-520, `Scalar::ONE << (BITS - base_log * level)`: debug builds panic when the subtraction
or the shift overflows; release builds wrap the subtraction and keep the shift modulo the width. -/
def gadgetU (m : Build) (w b lev : Nat) : Option (BitVec w) :=
  match m with
  | .debug => if 1 ≤ b * lev ∧ b * lev ≤ w then some (1#w <<< (w - b * lev)) else none
  | .release => some (1#w <<< ((w + 2 ^ 64 - b * lev % 2 ^ 64) % 2 ^ 64 % w))

/-- ggsw/standard.rs:514-532, the loop on the level matrices, from level `j + 1` on. -/
def trivialLevels (m : Build) (N k b : Nat) (msg : BitVec w) :
    Nat → List (List (BitVec w)) → Option (List (List (BitVec w)))
  | _, [] => some []
  | j, matrix :: rest =>
    match gadgetU m w b (j + 1) with
    | none => none
    | some g =>
      match trivialLevels m N k b msg (j + 1) rest with
      | none => none
      | some r => some ((Glwe.addDiagonal N (msg * g) (chunks ((k + 1) * N) matrix)).flatten :: r)

/-- default_engine/ggsw_ciphertext_scalar_trivial_encryption.rs:54-90, 132-168
`trivially_encrypt_scalar_ggsw_ciphertext`: there is no check. ggsw/standard.rs:83-99, 504-534, on a new container,
whose bodies are zero; for a positive polynomial size and the GLWE size `k + 1`. -/
def triviallyEncryptGgsw (m : Build) (N k level b : Nat) (msg : BitVec w) : Res EErr (Ggsw (BitVec w)) :=
  match Ggsw.allocate m (0#w) N (k + 1) level b with
  | none => .panic
  | some g =>
    match trivialLevels m N k b msg 0 (chunks ((k + 1) * ((k + 1) * N)) g.tensor) with
    | none => .panic
    | some ms => .ok { g with tensor := ms.flatten }

end Verif.Entity
