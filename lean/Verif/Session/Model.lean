import Verif.Pks.Cbs
import Verif.Engine.Vec
import Verif.Engine.Keys
import Verif.Engine.Checks
import Verif.Entity.Model
/-
Model of the stateful part of the default engines: the generators an engine owns, and every engine call that
draws from them.

Source: /repo/concrete-core/src/backends/default/implementation/engines/default_engine (`default_engine/`),
default_parallel_engine (`default_parallel_engine/`), with the checks of
/repo/concrete-core/src/specification/engines (module Engine/Checks) and the functions of commons/crypto
modelled in Lwe, Glwe, Pks. The 32 and 64 bit implementations are textually identical and are the instances
`w = 32`, `w = 64`; a history may mix them. Line numbers are those of the 32 bit version.

`T seed` is the table of bytes of the generator of a seed (AES in `Verif.Session.Props`). The container of a
new entity is filled with zeros; sizes are assumed to fit in memory. After a panic the history ends.
-/
namespace Verif.Session
open Verif.Random Verif.Engine
open Verif.Csprng (Build)

/-- generator.rs:95-97 `RandomGenerator::new`, csprng generators/aes_ctr/generic.rs:60-72: the generator of a
seed starts after the first byte of its table and stops before the last. -/
def newSrc (T : BitVec 128 → Nat → BitVec 8) (seed : BitVec 128) : Src :=
  { table := T seed, pos := 1, bound := 2 ^ 132 - 1 }

/-- secret/generators/seeder.rs:46-48 `DeterministicSeeder::seed`: a uniform `u128`. -/
def seed : Samp (BitVec 128) := uniform 128

/-- default_engine/mod.rs:51-64 `DefaultEngine`. The `DefaultParallelEngine`
(default_parallel_engine/mod.rs:30-41) has no secret generator: there it is a source without bytes, which no
call of that engine reads. -/
structure Engine where
  secret : Src
  enc : EncGen
  seeder : Src

/-- secret/generators/encryption.rs:28-33 `EncryptionRandomGenerator::new`: the mask generator is seeded with
the given seed, the noise generator with the next seed of the seeder. -/
def newEncGen (T : BitVec 128 → Nat → BitVec 8) (s : BitVec 128) (seeder : Src) : Option (EncGen × Src) :=
  match seed seeder with
  | none => none
  | some (s', seeder') => some ({ mask := newSrc T s, noise := newSrc T s' }, seeder')

/-- default_engine/mod.rs:72-88 `new`; `root` is the seed returned by the seeder given by the user. -/
def newDefault (T : BitVec 128 → Nat → BitVec 8) (root : BitVec 128) : Option Engine :=
  match seed (newSrc T root) with
  | none => none
  | some (s0, sd) =>
    match seed sd with
    | none => none
    | some (s1, sd) =>
      match newEncGen T s1 sd with
      | none => none
      | some (enc, sd) => some { secret := newSrc T s0, enc := enc, seeder := sd }

/-- default_parallel_engine/mod.rs:50-61 `new`. -/
def newParallel (T : BitVec 128 → Nat → BitVec 8) (root : BitVec 128) : Option Engine :=
  match seed (newSrc T root) with
  | none => none
  | some (s0, sd) =>
    match newEncGen T s0 sd with
    | none => none
    | some (enc, sd) => some { secret := { table := fun _ => 0, pos := 0, bound := 0 }, enc := enc, seeder := sd }

/-! ### What calls return -/

/-- The ciphertexts in an entity: a flat list of ciphertexts of `size` words, each beginning with its mask of
`maskLen` words. -/
structure Cts (w : Nat) where
  maskLen : Nat
  size : Nat
  data : List (BitVec w)
  deriving DecidableEq, Repr

/-- A seeded entity: the compression seed and the bodies, `bodyLen` words for each mask of `maskLen` words. -/
structure Seeded (w : Nat) where
  compressionSeed : BitVec 128
  maskLen : Nat
  bodyLen : Nat
  bodies : List (BitVec w)
  deriving DecidableEq, Repr

/-- The result of a call. -/
inductive Out where
  | key {w : Nat} (bits : List (BitVec w))
  | cts {w : Nat} (c : Cts w)
  | seeded {w : Nat} (s : Seeded w)
  | pub {w : Nat} (ct : List (BitVec w))
  | err (e : EErr)

/-! ### Calls that draw from the encryption generator -/

/-- secret/glwe.rs:945-959 `encrypt_zero_glwe_list`, the loop. -/
def encryptZeroGlweListAux {w : Nat} (f : GaussianFn w) (key : List (BitVec w)) (N : Nat) :
    List (List (BitVec w)) → EncGen → Option (List (List (BitVec w)) × EncGen)
  | [], g => some ([], g)
  | c :: cs, g =>
    match Glwe.encryptZeroGlwe f key N c g with
    | none => none
    | some (ct, g') =>
      match encryptZeroGlweListAux f key N cs g' with
      | none => none
      | some (cts, g'') => some (ct :: cts, g'')

/-- secret/glwe.rs:945-959 `encrypt_zero_glwe_list`. -/
def encryptZeroGlweList {w : Nat} (f : GaussianFn w) (key : List (BitVec w)) (N k : Nat)
    (out : List (BitVec w)) (g : EncGen) : Option (List (BitVec w) × EncGen) :=
  match encryptZeroGlweListAux f key N (chunks ((k + 1) * N) out) g with
  | none => none
  | some (cts, g') => some (cts.flatten, g')

/-- The calls of the engines that draw from the encryption generator; `f` is the sampler of the noise
distribution given to the call. A call of the parallel engine carries the schedule of its jobs. -/
inductive EncCall (w : Nat) where
  /-- default_engine/lwe_ciphertext_encryption.rs:42-65 -/
  | lwe (f : GaussianFn w) (key : List (BitVec w)) (msg : BitVec w)
  /-- default_engine/lwe_ciphertext_discarding_encryption.rs:46-71 (views 173-198) -/
  | lweInto (f : GaussianFn w) (key out : List (BitVec w)) (msg : BitVec w)
  /-- default_engine/lwe_ciphertext_zero_encryption.rs:42-63 -/
  | lweZero (f : GaussianFn w) (key : List (BitVec w))
  /-- default_engine/lwe_ciphertext_vector_encryption.rs:54-77 -/
  | lweVec (f : GaussianFn w) (key msgs : List (BitVec w))
  /-- default_engine/lwe_ciphertext_vector_discarding_encryption.rs:63-88 -/
  | lweVecInto (f : GaussianFn w) (key : List (BitVec w)) (out : LweVec (BitVec w)) (msgs : List (BitVec w))
  /-- default_engine/lwe_ciphertext_vector_zero_encryption.rs:47-77 -/
  | lweVecZero (f : GaussianFn w) (key : List (BitVec w)) (count : Nat)
  /-- default_parallel_engine/lwe_ciphertext_vector_zero_encryption.rs:49-79 -/
  | parLweVecZero (f : GaussianFn w) (key : List (BitVec w)) (count : Nat) (sched : List Nat)
  /-- default_engine/lwe_public_key_generation.rs:48-76 -/
  | publicKey (f : GaussianFn w) (key : List (BitVec w)) (count : Nat)
  /-- default_parallel_engine/lwe_public_key_generation.rs:50-78 -/
  | parPublicKey (f : GaussianFn w) (key : List (BitVec w)) (count : Nat) (sched : List Nat)
  /-- default_engine/glwe_ciphertext_encryption.rs:51-79 -/
  | glwe (f : GaussianFn w) (key : GlweKey (BitVec w)) (msg : List (BitVec w))
  /-- default_engine/glwe_ciphertext_discarding_encryption.rs:54-79 -/
  | glweInto (f : GaussianFn w) (key : GlweKey (BitVec w)) (out : Entity.GlweCiphertext (BitVec w))
      (msg : List (BitVec w))
  /-- default_engine/glwe_ciphertext_zero_encryption.rs:44-65 -/
  | glweZero (f : GaussianFn w) (key : GlweKey (BitVec w))
  /-- default_engine/glwe_ciphertext_vector_encryption.rs:57-87 -/
  | glweVec (f : GaussianFn w) (key : GlweKey (BitVec w)) (msgs : List (BitVec w))
  /-- default_engine/glwe_ciphertext_vector_discarding_encryption.rs:67-92 -/
  | glweVecInto (f : GaussianFn w) (key : GlweKey (BitVec w)) (out : Entity.GlweList (BitVec w))
      (msgs : List (BitVec w))
  /-- default_engine/glwe_ciphertext_vector_zero_encryption.rs:49-78 -/
  | glweVecZero (f : GaussianFn w) (key : GlweKey (BitVec w)) (count : Nat)
  /-- default_engine/ggsw_ciphertext_scalar_encryption.rs:54-95 -/
  | ggsw (f : GaussianFn w) (key : GlweKey (BitVec w)) (msg : BitVec w) (level baseLog : Nat)
  /-- default_engine/ggsw_ciphertext_scalar_discarding_encryption.rs:58-83 -/
  | ggswInto (f : GaussianFn w) (key : GlweKey (BitVec w)) (out : Entity.Ggsw (BitVec w)) (msg : BitVec w)
  /-- default_engine/lwe_bootstrap_key_generation.rs:54-101 -/
  | bsk (f : GaussianFn w) (lweKey : List (BitVec w)) (key : GlweKey (BitVec w)) (baseLog level : Nat)
  /-- default_parallel_engine/lwe_bootstrap_key_generation.rs:57-104 -/
  | parBsk (f : GaussianFn w) (lweKey : List (BitVec w)) (key : GlweKey (BitVec w)) (baseLog level : Nat)
      (sched : List Nat) (levelSched : Nat → List Nat) (rowSched : Nat → Nat → List Nat)
  /-- default_engine/lwe_keyswitch_key_generation.rs:66-112 -/
  | ksk (f : GaussianFn w) (inKey outKey : List (BitVec w)) (level baseLog : Nat)
  /-- default_engine/lwe_packing_keyswitch_key_generation.rs:75-123 -/
  | pksk (f : GaussianFn w) (inKey : List (BitVec w)) (key : GlweKey (BitVec w)) (level baseLog : Nat)
  /-- default_engine/lwe_private_functional_packing_keyswitch_key_generation.rs:90-152; `fone` is the value of
  the function at one. -/
  | pfpksk (f : GaussianFn w) (inKey : List (BitVec w)) (key : GlweKey (BitVec w)) (level baseLog : Nat)
      (fone : BitVec w) (polynomial : List (BitVec w))
  /-- default_engine/lwe_circuit_bootstrap_private_functional_packing_keyswitch_keys_generation.rs:82-126 -/
  | cbs (f : GaussianFn w) (inKey : List (BitVec w)) (key : GlweKey (BitVec w)) (baseLog level : Nat)
  /-- default_parallel_engine/lwe_circuit_bootstrap_private_functional_packing_keyswitch_keys_generation.rs:84-128 -/
  | parCbs (f : GaussianFn w) (inKey : List (BitVec w)) (key : GlweKey (BitVec w)) (baseLog level : Nat)
      (sched : List Nat) (inner : Nat → List Nat)

/-- The dimensions of a GLWE key that the checks read. -/
def keyDims {w : Nat} (k : GlweKey (BitVec w)) : M.Glwe := { glweDim := k.dim, polySize := k.polySize }

namespace EncCall
variable {w : Nat}

/-- The generic checks of each call, made before anything is drawn. -/
def check (bld : Build) : EncCall w → Res EErr Unit
  | lwe .. | lweZero .. | lweVec .. | glweZero .. | ggsw .. => .ok ()
  | lweInto _ key out _ => Checks.lweCiphertextDiscardingEncryption ⟨key.length⟩ ⟨out.length - 1⟩
  | lweVecInto _ key out msgs =>
    Checks.lweCiphertextVectorDiscardingEncryption ⟨key.length⟩ ⟨out.dim, out.count⟩ ⟨msgs.length⟩
  | lweVecZero _ _ count | parLweVecZero _ _ count _ => Checks.lweCiphertextVectorZeroEncryption count
  | publicKey _ _ count | parPublicKey _ _ count _ => Checks.lwePublicKeyGeneration count
  | glwe _ key msg => Checks.glweCiphertextEncryption (keyDims key) ⟨msg.length⟩
  | glweInto _ key out msg => Checks.glweCiphertextDiscardingEncryption (keyDims key)
      ⟨out.tensor.length / out.polySize - 1, out.polySize⟩ ⟨msg.length⟩
  | glweVec _ key msgs => Checks.glweCiphertextVectorEncryption (keyDims key) ⟨msgs.length⟩
  | glweVecInto _ key out msgs => Checks.glweCiphertextVectorDiscardingEncryption (keyDims key)
      ⟨out.glweSize - 1, out.polySize, out.tensor.length / (out.glweSize * out.polySize)⟩ ⟨msgs.length⟩
  | glweVecZero _ _ count => Checks.glweCiphertextVectorZeroEncryption count
  | ggswInto _ key out _ => Checks.ggswCiphertextScalarDiscardingEncryption (keyDims key)
      ⟨out.glweSize - 1, out.polySize,
        out.tensor.length / (out.glweSize * out.glweSize * out.polySize), out.baseLog⟩
  | bsk _ _ _ baseLog level | parBsk _ _ _ baseLog level _ _ _ => Checks.keyGeneration bld baseLog level w
  | ksk _ _ _ level baseLog | pksk _ _ _ level baseLog => Checks.keyGeneration bld baseLog level w
  | pfpksk _ _ key level baseLog _ p =>
    Checks.lwePrivateFunctionalPackingKeyswitchKeyGeneration bld level baseLog w key.polySize p.length
  | cbs _ _ _ baseLog level | parCbs _ _ _ baseLog level _ _ => Checks.keyGeneration bld baseLog level w

/-- The lengths of the masks and of the ciphertexts in the entity returned. -/
def shape : EncCall w → Nat × Nat
  | lwe _ key _ | lweInto _ key _ _ | lweZero _ key | lweVec _ key _ | lweVecInto _ key _ _
  | lweVecZero _ key _ | parLweVecZero _ key _ _ | publicKey _ key _ | parPublicKey _ key _ _
  | ksk _ _ key _ _ => (key.length, key.length + 1)
  | glwe _ key _ | glweInto _ key _ _ | glweZero _ key | glweVec _ key _ | glweVecInto _ key _ _
  | glweVecZero _ key _ | ggsw _ key _ _ _ | ggswInto _ key _ _ | bsk _ _ key _ _
  | parBsk _ _ key _ _ _ _ _ | pksk _ _ key _ _ | pfpksk _ _ key _ _ _ _ | cbs _ _ key _ _
  | parCbs _ _ key _ _ _ _ => (key.dim * key.polySize, (key.dim + 1) * key.polySize)

/-- The `_unchecked` function of each call: allocation of the container if it is not given, and encryption. -/
def exec (bld : Build) : EncCall w → EncGen → Option (List (BitVec w) × EncGen)
  | lwe f key msg, g => Lwe.encryptLwe f key (List.replicate (key.length + 1) 0) msg g
  | lweInto f key out msg, g => Lwe.encryptLwe f key out msg g
  | lweZero f key, g => Lwe.encryptLwe f key (List.replicate (key.length + 1) 0) 0 g
  | lweVec f key msgs, g => Lwe.encryptLweList f key (key.length + 1)
      (List.replicate ((key.length + 1) * msgs.length) 0) msgs g
  | lweVecInto f key out msgs, g => Lwe.encryptLweList f key out.lweSize out.data msgs g
  | lweVecZero f key count, g | publicKey f key count, g =>
    (zeroEncryptVec f key count g).map fun r => (r.1.data, r.2)
  | parLweVecZero f key count sched, g | parPublicKey f key count sched, g =>
    Lwe.parEncryptLweList f key (key.length + 1) (List.replicate ((key.length + 1) * count) 0)
      (List.replicate count 0) g sched
  | glwe f key msg, g => Glwe.encryptGlwe f key.data key.polySize
      (List.replicate (key.polySize * (key.dim + 1)) 0) msg g
  | glweInto f key out msg, g => Glwe.encryptGlwe f key.data out.polySize out.tensor msg g
  | glweZero f key, g => Glwe.encryptZeroGlwe f key.data key.polySize
      (List.replicate (key.polySize * (key.dim + 1)) 0) g
  | glweVec f key msgs, g => Glwe.encryptGlweList f key.data key.polySize key.dim
      (List.replicate (key.polySize * (key.dim + 1) * (msgs.length / key.polySize)) 0) msgs g
  | glweVecInto f key out msgs, g =>
    Glwe.encryptGlweList f key.data out.polySize (out.glweSize - 1) out.tensor msgs g
  | glweVecZero f key count, g => encryptZeroGlweList f key.data key.polySize key.dim
      (List.replicate (key.polySize * (key.dim + 1) * count) 0) g
  | ggsw f key msg level baseLog, g => Glwe.encryptGgsw f key.data key.polySize key.dim baseLog
      (List.replicate (level * ((key.dim + 1) * ((key.dim + 1) * key.polySize))) 0) msg g
  | ggswInto f key out msg, g =>
    Glwe.encryptGgsw f key.data out.polySize (out.glweSize - 1) out.baseLog out.tensor msg g
  | bsk f lweKey key baseLog level, g => Glwe.fillBsk f lweKey key.data key.polySize key.dim baseLog level
      (List.replicate (lweKey.length * (level * ((key.dim + 1) * ((key.dim + 1) * key.polySize)))) 0) g
  | parBsk f lweKey key baseLog level sched levelSched rowSched, g =>
    Glwe.parFillBsk f lweKey key.data key.polySize key.dim baseLog level sched levelSched rowSched
      (List.replicate (lweKey.length * (level * ((key.dim + 1) * ((key.dim + 1) * key.polySize)))) 0) g
  | ksk f inKey outKey level baseLog, g => Lwe.fillKeyswitchKey f inKey outKey baseLog level (outKey.length + 1)
      (List.replicate (inKey.length * (level * (outKey.length + 1))) 0) g
  | pksk f inKey key level baseLog, g =>
    Pks.fillPackingKey f inKey key.data baseLog level key.polySize key.dim
      (List.replicate (inKey.length * (level * ((key.dim + 1) * key.polySize))) 0) g
  | pfpksk f inKey key level baseLog fone polynomial, g =>
    Pks.fillPrivateKey f inKey key.data baseLog level key.polySize key.dim fone polynomial
      (List.replicate ((inKey.length + 1) * (level * ((key.dim + 1) * key.polySize))) 0) g
  | cbs f inKey key baseLog level, g =>
    Pks.fillCbsKeys bld f inKey key.data baseLog level key.polySize key.dim (key.dim + 1)
      (List.replicate ((key.dim + 1) * ((inKey.length + 1) * (level * ((key.dim + 1) * key.polySize)))) 0) g
  | parCbs f inKey key baseLog level sched inner, g =>
    Pks.parFillCbsKeys bld f inKey key.data baseLog level key.polySize key.dim (key.dim + 1) sched inner
      (List.replicate ((key.dim + 1) * ((inKey.length + 1) * (level * ((key.dim + 1) * key.polySize)))) 0) g

/-- A checked call. -/
def run (bld : Build) (c : EncCall w) (g : EncGen) : Res EErr (Cts w × EncGen) :=
  match c.check bld with
  | .err e => .err e
  | .panic => .panic
  | .ok _ =>
    match c.exec bld g with
    | none => .panic
    | some (d, g') => .ok ({ maskLen := c.shape.1, size := c.shape.2, data := d }, g')

end EncCall

/-! ### Seeded calls: they draw two seeds from the seeder -/

/-- The calls that create seeded entities. -/
inductive SeededCall (w : Nat) where
  /-- default_engine/lwe_seeded_ciphertext_encryption.rs:48-78 -/
  | lwe (f : GaussianFn w) (key : List (BitVec w)) (msg : BitVec w)
  /-- default_engine/lwe_seeded_ciphertext_vector_encryption.rs:60-93 -/
  | lweVec (f : GaussianFn w) (key msgs : List (BitVec w))
  /-- default_engine/lwe_seeded_keyswitch_key_generation.rs:65-114 -/
  | ksk (f : GaussianFn w) (inKey outKey : List (BitVec w)) (level baseLog : Nat)
  /-- default_engine/glwe_seeded_ciphertext_encryption.rs:54-88 -/
  | glwe (f : GaussianFn w) (key : GlweKey (BitVec w)) (msg : List (BitVec w))
  /-- default_engine/glwe_seeded_ciphertext_vector_encryption.rs:61-98 -/
  | glweVec (f : GaussianFn w) (key : GlweKey (BitVec w)) (msgs : List (BitVec w))
  /-- default_engine/lwe_seeded_bootstrap_key_generation.rs:57-107 -/
  | bsk (f : GaussianFn w) (lweKey : List (BitVec w)) (key : GlweKey (BitVec w)) (baseLog level : Nat)
  /-- default_parallel_engine/lwe_seeded_bootstrap_key_generation.rs:60-110 -/
  | parBsk (f : GaussianFn w) (lweKey : List (BitVec w)) (key : GlweKey (BitVec w)) (baseLog level : Nat)
      (sched : List Nat) (levelSched : Nat → List Nat) (rowSched : Nat → Nat → List Nat)

namespace SeededCall
variable {w : Nat}

/-- The generic checks. -/
def check (bld : Build) : SeededCall w → Res EErr Unit
  | lwe .. | lweVec .. => .ok ()
  | ksk _ _ _ level baseLog => Checks.keyGeneration bld baseLog level w
  | glwe _ key msg => Checks.glweSeededCiphertextEncryption (keyDims key) ⟨msg.length⟩
  | glweVec _ key msgs => Checks.glweCiphertextVectorEncryption (keyDims key) ⟨msgs.length⟩
  | bsk _ _ _ baseLog level | parBsk _ _ _ baseLog level _ _ _ => Checks.keyGeneration bld baseLog level w

/-- The lengths of the mask and of the body of one ciphertext. -/
def shape : SeededCall w → Nat × Nat
  | lwe _ key _ | lweVec _ key _ | ksk _ _ key _ _ => (key.length, 1)
  | glwe _ key _ | glweVec _ key _ | bsk _ _ key _ _ | parBsk _ _ key _ _ _ _ _ =>
    (key.dim * key.polySize, key.polySize)

/-- The bodies computed with the generator made from the two seeds. -/
def exec : SeededCall w → EncGen → Option (List (BitVec w) × EncGen)
  | lwe f key msg, g => (Lwe.encryptSeededLwe f key msg g).map fun r => ([r.1], r.2)
  | lweVec f key msgs, g => Lwe.encryptSeededLweList f key (List.replicate msgs.length 0) msgs g
  | ksk f inKey outKey level baseLog, g =>
    Lwe.fillSeededKeyswitchKey f inKey outKey baseLog level (List.replicate (inKey.length * level) 0) g
  | glwe f key msg, g => Glwe.encryptSeededGlwe f key.data key.polySize msg g
  | glweVec f key msgs, g => Glwe.encryptSeededGlweList f key.data key.polySize
      (List.replicate (key.polySize * (msgs.length / key.polySize)) 0) msgs g
  | bsk f lweKey key baseLog level, g =>
    Glwe.fillSeededBsk f lweKey key.data key.polySize key.dim baseLog level
      (List.replicate (lweKey.length * (level * ((key.dim + 1) * key.polySize))) 0) g
  | parBsk f lweKey key baseLog level sched levelSched rowSched, g =>
    Glwe.parFillSeededBsk f lweKey key.data key.polySize key.dim baseLog level sched levelSched rowSched
      (List.replicate (lweKey.length * (level * ((key.dim + 1) * key.polySize))) 0) g

/-- A checked call: the compression seed is drawn first, then the seed of the noise
(secret/lwe.rs:466, 688, secret/glwe.rs:664, 881, lwe/seeded_keyswitch.rs:313,
bootstrap/seeded_standard/mod.rs:218, 311 `EncryptionRandomGenerator::new`). -/
def run (T : BitVec 128 → Nat → BitVec 8) (bld : Build) (c : SeededCall w) (seeder : Src) :
    Res EErr (Seeded w × Src) :=
  match c.check bld with
  | .err e => .err e
  | .panic => .panic
  | .ok _ =>
    match seed seeder with
    | none => .panic
    | some (s, seeder) =>
      match newEncGen T s seeder with
      | none => .panic
      | some (g, seeder) =>
        match c.exec g with
        | none => .panic
        | some (bodies, _) =>
          .ok ({ compressionSeed := s, maskLen := c.shape.1, bodyLen := c.shape.2, bodies := bodies }, seeder)

end SeededCall

/-! ### Calls that draw from the secret generator -/

/-- The calls of the default engine that draw from its secret generator. -/
inductive SecretCall (w : Nat) where
  /-- default_engine/lwe_secret_key_generation.rs:32-48 -/
  | lweKey (dim : Nat)
  /-- default_engine/glwe_secret_key_generation.rs:36-55 -/
  | glweKey (dim polySize : Nat)
  /-- default_engine/lwe_ciphertext_discarding_public_key_encryption.rs:58-91 -/
  | publicEncrypt (pk : LweVec (BitVec w)) (out : List (BitVec w)) (msg : BitVec w)

namespace SecretCall
variable {w : Nat}

/-- The generic checks. -/
def check : SecretCall w → Res EErr Unit
  | lweKey dim => Checks.lweSecretKeyGeneration dim
  | glweKey dim polySize => Checks.glweSecretKeyGeneration dim polySize
  | publicEncrypt pk out _ => Checks.lweCiphertextDiscardingPublicKeyEncryption ⟨pk.dim⟩ ⟨out.length - 1⟩

/-- The number of bytes each call draws. -/
def bytes : SecretCall w → Nat
  | lweKey dim => dim
  | glweKey dim polySize => polySize * dim
  | publicEncrypt pk _ _ => pk.count

/-- The `_unchecked` functions: secret/lwe.rs:61-69 and secret/glwe.rs:63-73 `generate_binary`. -/
def exec : SecretCall w → Src → Option (Out × Src)
  | lweKey dim, g => (rep dim (uniformBinary w) g).map fun r => (.key r.1, r.2)
  | glweKey dim polySize, g => (rep (polySize * dim) (uniformBinary w) g).map fun r => (.key r.1, r.2)
  | publicEncrypt pk out msg, g =>
    match Engine.publicEncrypt pk out msg g with
    | .ok (ct, g') => some (.pub ct, g')
    | _ => none

/-- A checked call. -/
def run (c : SecretCall w) (g : Src) : Res EErr (Out × Src) :=
  match c.check with
  | .err e => .err e
  | .panic => .panic
  | .ok _ =>
    match c.exec g with
    | none => .panic
    | some r => .ok r

end SecretCall

/-! ### Histories -/

/-- A call of an engine. -/
inductive Call where
  | secret {w : Nat} (c : SecretCall w)
  | enc {w : Nat} (c : EncCall w)
  | seeded {w : Nat} (c : SeededCall w)

/-- One call: its result and the engine after it; `none` is a panic. An error leaves the engine as it was
(the checks of EncCall.run, SeededCall.run and SecretCall.run come before any draw). -/
def step (T : BitVec 128 → Nat → BitVec 8) (bld : Build) : Call → Engine → Option (Out × Engine)
  | .secret c, e =>
    match c.run e.secret with
    | .ok (o, g) => some (o, { e with secret := g })
    | .err x => some (.err x, e)
    | .panic => none
  | .enc c, e =>
    match c.run bld e.enc with
    | .ok (o, g) => some (.cts o, { e with enc := g })
    | .err x => some (.err x, e)
    | .panic => none
  | .seeded c, e =>
    match c.run T bld e.seeder with
    | .ok (o, g) => some (.seeded o, { e with seeder := g })
    | .err x => some (.err x, e)
    | .panic => none

/-- A history of calls. -/
def run (T : BitVec 128 → Nat → BitVec 8) (bld : Build) : List Call → Engine → Option (List Out × Engine)
  | [], e => some ([], e)
  | c :: cs, e =>
    match step T bld c e with
    | none => none
    | some (o, e') =>
      match run T bld cs e' with
      | none => none
      | some (os, e'') => some (o :: os, e'')

end Verif.Session
