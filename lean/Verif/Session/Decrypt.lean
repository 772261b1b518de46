import Verif.Session.Model
/-
Model of the calls of the default engine that do not draw: decryption, trivial encryption and decryption, and
the transformation of seeded ciphertexts into ciphertexts.

Source: /repo/concrete-core/src/backends/default/implementation/engines/default_engine (`default_engine/`), with
the checks of Engine/Checks and the functions of commons/crypto modelled in Lwe and Glwe. None of these functions
uses a field of the engine, so none takes it. The 32 and 64 bit implementations are textually identical; line
numbers are those of the 32 bit version.

Simplifications: `bld` selects the assertions and the checked product of `compute_multisum`; the encryption calls
of Session/Model have the release behaviour. GLWE sizes are at least one (`k` is the GLWE dimension).
-/
namespace Verif.Session
open Verif.Random Verif.Engine
open Verif.Csprng (Build)
variable {w : Nat}

/-- A checked call: the checks, then the unchecked function, which may panic. -/
def afterCheck {α : Type} (c : Res EErr Unit) (o : Option α) : Res EErr α :=
  match c with
  | .err e => .err e
  | .panic => .panic
  | .ok _ => match o with
    | none => .panic
    | some x => .ok x

/-! ### Decryption -/

/-- lwe/ciphertext.rs:801-813 `compute_multisum`, tensor.rs:1242-1259 `fold_with_one`: the lengths are compared and
the product is checked in debug builds only. -/
def multisumIn (bld : Build) (mask key : List (BitVec w)) : Option (BitVec w) :=
  match bld with
  | .release => some (Lwe.multisum mask key)
  | .debug => if mask.length = key.length then Lwe.multisumDebug mask key else none

/-- secret/lwe.rs:701-715 `decrypt_lwe`. -/
def decryptWord (bld : Build) (key ct : List (BitVec w)) : Option (BitVec w) :=
  match ct.getLast? with
  | none => none
  | some b => (multisumIn bld ct.dropLast key).map fun s => b - s

/-- secret/lwe.rs:736-738, the loop of `decrypt_lwe_list` over the ciphertexts and the outputs. -/
def decryptWords (bld : Build) (key : List (BitVec w)) : List (List (BitVec w)) → List (BitVec w) →
    Option (List (BitVec w))
  | ct :: cts, _ :: os =>
    match decryptWord bld key ct with
    | none => none
    | some x =>
      match decryptWords bld key cts os with
      | none => none
      | some xs => some (x :: xs)
  | _, os => some os

/-- default_engine/lwe_ciphertext_decryption.rs:39-56: no checks. -/
def decryptLwe (bld : Build) (key ct : List (BitVec w)) : Res EErr (BitVec w) :=
  afterCheck (.ok ()) (decryptWord bld key ct)

/-- default_engine/lwe_ciphertext_discarding_decryption.rs:43-61; the output is overwritten. -/
def decryptLweInto (bld : Build) (key : List (BitVec w)) (_out : BitVec w) (ct : List (BitVec w)) :
    Res EErr (BitVec w) :=
  afterCheck (Checks.lweCiphertextDiscardingDecryption ⟨key.length⟩ ⟨ct.length - 1⟩) (decryptWord bld key ct)

/-- default_engine/lwe_ciphertext_vector_decryption.rs:54-73. -/
def decryptLweVec (bld : Build) (key : List (BitVec w)) (v : LweVec (BitVec w)) : Res EErr (List (BitVec w)) :=
  afterCheck (Checks.lweCiphertextVectorDecryption ⟨key.length⟩ ⟨v.dim, v.count⟩)
    (decryptWords bld key v.cts (List.replicate v.count 0))

/-- default_engine/lwe_ciphertext_vector_discarding_decryption.rs:53-71. -/
def decryptLweVecInto (bld : Build) (key out : List (BitVec w)) (v : LweVec (BitVec w)) :
    Res EErr (List (BitVec w)) :=
  afterCheck (Checks.lweCiphertextVectorDiscardingDecryption ⟨key.length⟩ ⟨out.length⟩ ⟨v.dim, v.count⟩)
    (decryptWords bld key v.cts out)

/-- The dimensions of a GLWE ciphertext that the checks read (glwe/ciphertext.rs:127-160). -/
def ctDims (ct : Entity.GlweCiphertext (BitVec w)) : M.Glwe :=
  { glweDim := ct.tensor.length / ct.polySize - 1, polySize := ct.polySize }

/-- The dimensions of a vector of GLWE ciphertexts (glwe/list.rs:96-150). -/
def vecDims (v : Entity.GlweList (BitVec w)) : M.GlweVec :=
  { glweDim := v.glweSize - 1, polySize := v.polySize,
    count := v.tensor.length / (v.glweSize * v.polySize) }

/-- default_engine/glwe_ciphertext_decryption.rs:54-72. -/
def decryptGlwe (key : GlweKey (BitVec w)) (ct : Entity.GlweCiphertext (BitVec w)) : Res EErr (List (BitVec w)) :=
  afterCheck (Checks.glweCiphertextDecryption (keyDims key) (ctDims ct))
    (some (Glwe.decryptGlwe ct.polySize key.data (List.replicate key.polySize 0) ct.tensor))

/-- default_engine/glwe_ciphertext_discarding_decryption.rs:46-64. -/
def decryptGlweInto (key : GlweKey (BitVec w)) (out : List (BitVec w)) (ct : Entity.GlweCiphertext (BitVec w)) :
    Res EErr (List (BitVec w)) :=
  afterCheck (Checks.glweCiphertextDiscardingDecryption (keyDims key) ⟨out.length⟩ (ctDims ct))
    (some (Glwe.decryptGlwe ct.polySize key.data out ct.tensor))

/-- default_engine/glwe_ciphertext_vector_decryption.rs:57-80. -/
def decryptGlweVec (key : GlweKey (BitVec w)) (v : Entity.GlweList (BitVec w)) : Res EErr (List (BitVec w)) :=
  afterCheck (Checks.glweCiphertextVectorDecryption (keyDims key) (vecDims v))
    (some (Glwe.decryptGlweList v.polySize (v.glweSize - 1) key.data
      (List.replicate (key.polySize * (vecDims v).count) 0) v.tensor))

/-- default_engine/glwe_ciphertext_vector_discarding_decryption.rs:55-73. -/
def decryptGlweVecInto (key : GlweKey (BitVec w)) (out : List (BitVec w)) (v : Entity.GlweList (BitVec w)) :
    Res EErr (List (BitVec w)) :=
  afterCheck (Checks.glweCiphertextVectorDiscardingDecryption (keyDims key) ⟨out.length⟩ (vecDims v))
    (some (Glwe.decryptGlweList v.polySize (v.glweSize - 1) key.data out v.tensor))

/-! ### Trivial encryption and decryption -/

/-- lwe/list.rs:494-496, the loop of `fill_with_trivial_encryption`. -/
def trivialWords : List (List (BitVec w)) → List (BitVec w) → Option (List (List (BitVec w)))
  | ct :: cts, m :: ms =>
    match Lwe.fillWithTrivialEncryption ct m with
    | none => none
    | some x =>
      match trivialWords cts ms with
      | none => none
      | some xs => some (x :: xs)
  | cts, _ => some cts

/-- default_engine/lwe_ciphertext_vector_trivial_encryption.rs:40-57, lwe/list.rs:102-116
`new_trivial_encryption`: the iteration over ciphertexts of no words panics. -/
def trivialEncryptLweVec (lweSize : Nat) (pts : List (BitVec w)) : Res EErr (LweVec (BitVec w)) :=
  if lweSize = 0 then .panic
  else match trivialWords (chunks lweSize (List.replicate (lweSize * pts.length) 0)) pts with
    | none => .panic
    | some cts => .ok { lweSize := lweSize, data := cts.flatten }

/-- default_engine/lwe_ciphertext_vector_trivial_decryption.rs:50-56, the loop: the bodies. -/
def bodies : List (List (BitVec w)) → List (BitVec w) → Option (List (BitVec w))
  | ct :: cts, _ :: os =>
    match ct.getLast? with
    | none => none
    | some x =>
      match bodies cts os with
      | none => none
      | some xs => some (x :: xs)
  | _, os => some os

/-- default_engine/lwe_ciphertext_vector_trivial_decryption.rs:38-57. -/
def trivialDecryptLweVec (v : LweVec (BitVec w)) : Res EErr (List (BitVec w)) :=
  afterCheck (.ok ()) (bodies v.cts (List.replicate v.count 0))

/-- default_engine/glwe_ciphertext_trivial_encryption.rs:41-57. -/
def trivialEncryptGlwe (k : Nat) (pts : List (BitVec w)) : Res EErr (Entity.GlweCiphertext (BitVec w)) :=
  .ok ⟨Glwe.newTrivialGlwe k pts, pts.length⟩

/-- default_engine/glwe_ciphertext_discarding_trivial_encryption.rs:44-60. -/
def trivialEncryptGlweInto (out : Entity.GlweCiphertext (BitVec w)) (pts : List (BitVec w)) :
    Res EErr (Entity.GlweCiphertext (BitVec w)) :=
  afterCheck (Checks.glweCiphertextDiscardingTrivialEncryption (ctDims out) ⟨pts.length⟩)
    (some ⟨Glwe.fillTrivialGlwe out.polySize out.tensor pts, out.polySize⟩)

/-- default_engine/glwe_ciphertext_trivial_decryption.rs:36-50: the body. -/
def trivialDecryptGlwe (ct : Entity.GlweCiphertext (BitVec w)) : Res EErr (List (BitVec w)) :=
  .ok (Glwe.bodyOf ct.polySize ct.tensor)

/-- glwe/list.rs:286-291, the loop of `fill_with_trivial_encryption`. -/
def trivialPolys (N : Nat) : List (List (BitVec w)) → List (List (BitVec w)) → List (List (BitVec w))
  | ct :: cts, m :: ms => Glwe.fillTrivialGlwe N ct m :: trivialPolys N cts ms
  | cts, _ => cts

/-- default_engine/glwe_ciphertext_vector_trivial_encryption.rs:49-83: the polynomial size is the number of
plaintexts by ciphertext; the iteration over polynomials of no coefficients panics. -/
def trivialEncryptGlweVec (k count : Nat) (pts : List (BitVec w)) : Res EErr (Entity.GlweList (BitVec w)) :=
  afterCheck (Checks.glweCiphertextVectorTrivialEncryption count ⟨pts.length⟩)
    (let N := pts.length / count
     if N = 0 then none
     else some ⟨(trivialPolys N (chunks ((k + 1) * N) (List.replicate (N * (k + 1) * count) 0))
       (chunks N pts)).flatten, k + 1, N⟩)

/-- default_engine/glwe_ciphertext_vector_trivial_decryption.rs:60-67, the loop (`fill_with_copy` of the body). -/
def bodyPolys (N : Nat) : List (List (BitVec w)) → List (List (BitVec w)) → List (List (BitVec w))
  | _ :: os, ct :: cts => Glwe.bodyOf N ct :: bodyPolys N os cts
  | os, _ => os

/-- default_engine/glwe_ciphertext_vector_trivial_decryption.rs:45-69. -/
def trivialDecryptGlweVec (v : Entity.GlweList (BitVec w)) : Res EErr (List (BitVec w)) :=
  .ok (bodyPolys v.polySize (chunks v.polySize (List.replicate ((vecDims v).count * v.polySize) 0))
    (chunks (v.glweSize * v.polySize) v.tensor)).flatten

/-! ### Seeded ciphertexts -/

variable (T : BitVec 128 → Nat → BitVec 8)

/-- default_engine/lwe_seeded_to_lwe_ciphertext_transformation.rs:47-70. -/
def transformLwe (s : Seeded w) : Res EErr (List (BitVec w)) :=
  match s.bodies with
  | [b] => afterCheck (.ok ())
      ((Lwe.expandLwe (List.replicate (s.maskLen + 1) 0) b (newSrc T s.compressionSeed)).map (·.1))
  | _ => .panic

/-- default_engine/lwe_seeded_ciphertext_vector_to_lwe_ciphertext_vector_transformation.rs:56-84. -/
def transformLweVec (s : Seeded w) : Res EErr (LweVec (BitVec w)) :=
  afterCheck (.ok ())
    ((Lwe.expandLweList (s.maskLen + 1) (List.replicate ((s.maskLen + 1) * s.bodies.length) 0) s.bodies
      (newSrc T s.compressionSeed)).map fun r => { lweSize := s.maskLen + 1, data := r.1 })

/-- default_engine/glwe_seeded_ciphertext_to_glwe_ciphertext_transformation.rs:58-87. -/
def transformGlwe (s : Seeded w) : Res EErr (Entity.GlweCiphertext (BitVec w)) :=
  afterCheck (.ok ())
    ((Glwe.expandGlwe s.bodyLen (List.replicate (s.bodyLen * (s.maskLen / s.bodyLen + 1)) 0) s.bodies
      (newSrc T s.compressionSeed)).map fun r => ⟨r.1, s.bodyLen⟩)

/-- default_engine/glwe_seeded_vector_to_glwe_ciphertext_vector_transformation.rs:62-93. -/
def transformGlweVec (s : Seeded w) : Res EErr (Entity.GlweList (BitVec w)) :=
  afterCheck (.ok ())
    ((Glwe.expandGlweList s.bodyLen (s.maskLen / s.bodyLen)
      (List.replicate (s.bodyLen * (s.maskLen / s.bodyLen + 1) * (s.bodies.length / s.bodyLen)) 0) s.bodies
      (newSrc T s.compressionSeed)).map fun r => ⟨r.1, s.maskLen / s.bodyLen + 1, s.bodyLen⟩)

end Verif.Session
