import Verif.Csprng.Model
import Verif.Util.Containers
/-
Serialization of the entities: the version wrapper of the serialization engines on top of the binary
format of `bincode` 1.x applied to the derived `serde` implementations.

Source: /repo/concrete-core/src/backends/default/implementation/engines/default_serialization_engine/
(`entity_serialization.rs`, `entity_deserialization.rs`, `mod.rs`) and
/repo/concrete-core/src/backends/fft/implementation/engines/fft_serialization_engine/.

External behaviour recorded in the trusted base: `bincode::serialize`/`bincode::deserialize` use the
fixed-width little-endian encoding, 64-bit lengths, a 32-bit enum tag, and ignore trailing bytes;
`usize` is 64 bits.
-/
namespace Verif.Serde

open Verif

/-- A byte of a serialized buffer. -/
abbrev Byte := BitVec 8

/-- The shapes of the derived `serde` implementations of the entities: fixed-width numbers, booleans,
`PhantomData`, `Vec`, and fields in declaration order. Newtype structs add nothing (bincode
serializes a newtype as its content). -/
inductive Schema where
  /-- `u32`, `u64`, `u128`, `usize`, and `f64` by its bits: `n` bytes, least significant first. -/
  | word (n : Nat)
  | bool
  | unit
  | seq (s : Schema)
  | pair (a b : Schema)
  deriving DecidableEq, Repr

/-- Values of a shape. -/
def Val : Schema → Type
  | .word n => BitVec (8 * n)
  | .bool => Bool
  | .unit => Unit
  | .seq s => List (Val s)
  | .pair a b => Val a × Val b

/-- Little-endian bytes of an integer (bincode fixint encoding). -/
def leBytes (n v : Nat) : List Byte :=
  match n with
  | 0 => []
  | n + 1 => BitVec.ofNat 8 v :: leBytes n (v / 256)

/-- Integer of little-endian bytes. -/
def ofLe : List Byte → Nat
  | [] => 0
  | b :: bs => b.toNat + 256 * ofLe bs

/-- `bincode::serialize` of a value of a shape. -/
def enc : (s : Schema) → Val s → List Byte
  | .word n, v => leBytes n (BitVec.toNat (w := 8 * n) v)
  | .bool, b => [if (show Bool from b) then 1 else 0]
  | .unit, _ => []
  | .seq s, vs =>
    let l : List (Val s) := vs
    leBytes 8 l.length ++ l.flatMap (enc s)
  | .pair a b, v => enc a v.1 ++ enc b v.2

/-- Reading `n` bytes: an error when the input is too short. -/
def takeBytes (n : Nat) (bs : List Byte) : Option (List Byte × List Byte) :=
  if bs.length < n then none else some (bs.take n, bs.drop n)

/-- Reading `n` elements in a row. -/
def decN {α : Type} (f : List Byte → Option (α × List Byte)) :
    Nat → List Byte → Option (List α × List Byte)
  | 0, bs => some ([], bs)
  | n + 1, bs =>
    match f bs with
    | none => none
    | some (a, r) =>
      match decN f n r with
      | none => none
      | some (as, r') => some (a :: as, r')

/-- `bincode::deserialize` of a value of a shape, with the bytes left over; `none` is a bincode
error (unexpected end of input, invalid boolean). -/
def dec : (s : Schema) → List Byte → Option (Val s × List Byte)
  | .word n, bs =>
    match takeBytes n bs with
    | none => none
    | some (x, r) => some (BitVec.ofNat (8 * n) (ofLe x), r)
  | .bool, bs =>
    match takeBytes 1 bs with
    | none => none
    | some (x, r) =>
      if ofLe x = 0 then some (false, r) else if ofLe x = 1 then some (true, r) else none
  | .unit, bs => some ((), bs)
  | .seq s, bs =>
    match takeBytes 8 bs with
    | none => none
    | some (x, r) => decN (dec s) (ofLe x) r
  | .pair a b, bs =>
    match dec a bs with
    | none => none
    | some (x, r) =>
      match dec b r with
      | none => none
      | some (y, r') => some ((x, y), r')

/-- default_serialization_engine/mod.rs:8-12, fft_serialization_engine/mod.rs: the errors of the
engine. -/
inductive SErr where
  | serialization | deserialization | unsupportedVersion
  deriving DecidableEq, Repr

/-- `enum XVersion { V0, #[serde(other)] Unsupported }` (entities/cleartext.rs:17-21 and the same
enum of every other entity): the enum tag is a `u32`, tag 0 is `V0` and every other tag is
`Unsupported`. -/
inductive Version where
  | v0 | unsupported
  deriving DecidableEq, Repr

def Version.tag : Version → Nat
  | .v0 => 0
  | .unsupported => 1

def Version.ofTag (t : Nat) : Version := if t = 0 then .v0 else .unsupported

/-- entity_serialization.rs:97-113 (and the same body for every entity) `serialize`:
`bincode::serialize(&Serializable { version: V0, inner })`. Writing to a `Vec<u8>` does not fail. -/
def serialize (s : Schema) (x : Val s) : Res SErr (List Byte) :=
  .ok (leBytes 4 Version.v0.tag ++ enc s x)

/-- entity_deserialization.rs:92-116 (and the same body for every entity) `deserialize`: the version
and the content are parsed first, the version is looked at afterwards. -/
def deserialize (s : Schema) (bs : List Byte) : Res SErr (Val s) :=
  match takeBytes 4 bs with
  | none => .err .deserialization
  | some (t, r) =>
    match dec s r with
    | none => .err .deserialization
    | some (x, _) =>
      match Version.ofTag (ofLe t) with
      | .unsupported => .err .unsupportedVersion
      | .v0 => .ok x

/-- entity_serialization.rs:115-117 `serialize_unchecked`: `self.serialize(entity).unwrap()`. -/
def unwrap {α : Type} (r : Res SErr α) : Res SErr α :=
  match r with
  | .ok a => .ok a
  | _ => .panic

/-! ### Entities of the default backend -/

/-- `usize` fields. -/
abbrev Schema.usize : Schema := .word 8

/-- `CompressionSeed { seed: Seed }` (commons/math/random/generator.rs:20-41), a `u128`. -/
abbrev Schema.seed : Schema := .word 16

/-- `LweSecretKey { tensor, phantom }` (commons/crypto/secret/lwe.rs:32-38); `b` is the number of
bytes of the scalar. -/
def Schema.lweSecretKey (b : Nat) : Schema := .pair (.seq (.word b)) .unit
/-- `GlweSecretKey { tensor, poly_size, phantom }` (commons/crypto/secret/glwe.rs:33-40). -/
def Schema.glweSecretKey (b : Nat) : Schema := .pair (.seq (.word b)) (.pair .usize .unit)
/-- `Cleartext(T)` (commons/crypto/encoding/cleartext.rs:10), `Plaintext(T)` (plaintext.rs:16). -/
def Schema.scalar (b : Nat) : Schema := .word b
/-- `CleartextList { tensor }` (encoding/cleartext.rs:15-17), `PlaintextList { tensor }`
(plaintext.rs:21-23), `LweCiphertext { tensor }` (lwe/ciphertext.rs:15-17). -/
def Schema.tensor (b : Nat) : Schema := .seq (.word b)
/-- `LweList { tensor, lwe_size }` (lwe/list.rs:17-20), also the content of a public key. -/
def Schema.lweList (b : Nat) : Schema := .pair (.seq (.word b)) .usize
/-- `LweSeededCiphertext { body, lwe_dimension, seed }` (lwe/seeded_ciphertext.rs:17-21). -/
def Schema.lweSeededCiphertext (b : Nat) : Schema := .pair (.word b) (.pair .usize .seed)
/-- `LweSeededList { tensor, lwe_dimension, seed }` (lwe/seeded_list.rs:23-27). -/
def Schema.lweSeededList (b : Nat) : Schema := .pair (.seq (.word b)) (.pair .usize .seed)
/-- `LweKeyswitchKey { tensor, base_log, level, lwe_size }` (lwe/keyswitch.rs:33-38). -/
def Schema.lweKeyswitchKey (b : Nat) : Schema :=
  .pair (.seq (.word b)) (.pair .usize (.pair .usize .usize))
/-- `LweSeededKeyswitchKey { tensor, base_log, level, lwe_size, seed }`
(lwe/seeded_keyswitch.rs:30-37). -/
def Schema.lweSeededKeyswitchKey (b : Nat) : Schema :=
  .pair (.seq (.word b)) (.pair .usize (.pair .usize (.pair .usize .seed)))
/-- `GlweCiphertext { tensor, poly_size }` (glwe/ciphertext.rs:17-20). -/
def Schema.glweCiphertext (b : Nat) : Schema := .pair (.seq (.word b)) .usize
/-- `GlweList { tensor, rlwe_size, poly_size }` (glwe/list.rs:16-20). -/
def Schema.glweList (b : Nat) : Schema := .pair (.seq (.word b)) (.pair .usize .usize)
/-- `GlweSeededCiphertext { tensor, glwe_dimension, seed }` (glwe/seeded_ciphertext.rs:18-22). -/
def Schema.glweSeededCiphertext (b : Nat) : Schema := .pair (.seq (.word b)) (.pair .usize .seed)
/-- `GlweSeededList { tensor, glwe_dimension, poly_size, compression_seed }`
(glwe/seeded_list.rs:17-22). -/
def Schema.glweSeededList (b : Nat) : Schema :=
  .pair (.seq (.word b)) (.pair .usize (.pair .usize .seed))
/-- `StandardGgswCiphertext { tensor, poly_size, rlwe_size, decomp_base_log }`
(ggsw/standard.rs:23-28). -/
def Schema.ggswCiphertext (b : Nat) : Schema :=
  .pair (.seq (.word b)) (.pair .usize (.pair .usize .usize))
/-- `StandardGgswSeededCiphertext { tensor, poly_size, glwe_size, decomp_base_log, seed }`
(ggsw/seeded_standard.rs:19-25). -/
def Schema.ggswSeededCiphertext (b : Nat) : Schema :=
  .pair (.seq (.word b)) (.pair .usize (.pair .usize (.pair .usize .seed)))
/-- `LwePackingKeyswitchKey { tensor, base_log, level, output_glwe_size, output_poly_size }`
(glwe/keyswitch.rs:33-39). -/
def Schema.packingKeyswitchKey (b : Nat) : Schema :=
  .pair (.seq (.word b)) (.pair .usize (.pair .usize (.pair .usize .usize)))
/-- `LwePrivateFunctionalPackingKeyswitchKeyList { tensor, base_log, level, input_lwe_size,
output_glwe_size, output_poly_size }` (glwe/keyswitch.rs:1697-1704). -/
def Schema.pfpkskList (b : Nat) : Schema :=
  .pair (.seq (.word b)) (.pair .usize (.pair .usize (.pair .usize (.pair .usize .usize))))
/-- `StandardBootstrapKey { tensor, poly_size, rlwe_size, decomp_level, decomp_base_log }`
(bootstrap/standard/mod.rs:27-33). -/
def Schema.bootstrapKey (b : Nat) : Schema :=
  .pair (.seq (.word b)) (.pair .usize (.pair .usize (.pair .usize .usize)))
/-- `StandardSeededBootstrapKey { tensor, poly_size, glwe_size, decomp_level, decomp_base_log,
seed }` (bootstrap/seeded_standard/mod.rs:29-36). -/
def Schema.seededBootstrapKey (b : Nat) : Schema :=
  .pair (.seq (.word b)) (.pair .usize (.pair .usize (.pair .usize (.pair .usize .seed))))
/-- `FloatEncoder { o: f64, delta: f64, nb_bit_precision, nb_bit_padding: usize, round: bool }`
(encoding/encoder.rs:120-126). -/
def Schema.floatEncoder : Schema :=
  .pair (.word 8) (.pair (.word 8) (.pair .usize (.pair .usize .bool)))

/-- The integer width of an entity. -/
inductive Width where
  | u32 | u64
  deriving DecidableEq, Repr

def Width.bytes : Width → Nat
  | .u32 => 4
  | .u64 => 8

/-- The entities which the default serialization engine serializes and deserializes
(`impl EntityDeserializationEngine<&[u8], X>` in entity_deserialization.rs). The views of
entity_serialization.rs are written as the entity they view. -/
inductive Entity where
  | cleartext (w : Width) | cleartextF64 | cleartextVector (w : Width) | cleartextVectorF64
  | ggswCiphertext (w : Width) | ggswSeededCiphertext (w : Width)
  | glweCiphertext (w : Width) | glweCiphertextVector (w : Width)
  | glweSecretKey (w : Width) | glweSeededCiphertext (w : Width)
  | glweSeededCiphertextVector (w : Width)
  | lweBootstrapKey (w : Width) | lweCiphertext (w : Width) | lweCiphertextVector (w : Width)
  | cbsPfpksk (w : Width) | lweKeyswitchKey (w : Width) | lweSecretKey (w : Width)
  | lweSeededBootstrapKey (w : Width) | lweSeededCiphertext (w : Width)
  | lweSeededCiphertextVector (w : Width) | lweSeededKeyswitchKey (w : Width)
  | lwePackingKeyswitchKey (w : Width) | lwePublicKey (w : Width)
  | plaintext (w : Width) | plaintextVector (w : Width)
  | floatEncoder | floatEncoderVector
  deriving DecidableEq, Repr

/-- The shape of the `inner` field written for an entity (backends/default/implementation/entities/). -/
def Entity.schema : Entity → Schema
  | .cleartext w => .scalar w.bytes
  | .cleartextF64 => .scalar 8
  | .cleartextVector w => .tensor w.bytes
  | .cleartextVectorF64 => .tensor 8
  | .ggswCiphertext w => .ggswCiphertext w.bytes
  | .ggswSeededCiphertext w => .ggswSeededCiphertext w.bytes
  | .glweCiphertext w => .glweCiphertext w.bytes
  | .glweCiphertextVector w => .glweList w.bytes
  | .glweSecretKey w => .glweSecretKey w.bytes
  | .glweSeededCiphertext w => .glweSeededCiphertext w.bytes
  | .glweSeededCiphertextVector w => .glweSeededList w.bytes
  | .lweBootstrapKey w => .bootstrapKey w.bytes
  | .lweCiphertext w => .tensor w.bytes
  | .lweCiphertextVector w => .lweList w.bytes
  | .cbsPfpksk w => .pfpkskList w.bytes
  | .lweKeyswitchKey w => .lweKeyswitchKey w.bytes
  | .lweSecretKey w => .lweSecretKey w.bytes
  | .lweSeededBootstrapKey w => .seededBootstrapKey w.bytes
  | .lweSeededCiphertext w => .lweSeededCiphertext w.bytes
  | .lweSeededCiphertextVector w => .lweSeededList w.bytes
  | .lweSeededKeyswitchKey w => .lweSeededKeyswitchKey w.bytes
  | .lwePackingKeyswitchKey w => .packingKeyswitchKey w.bytes
  | .lwePublicKey w => .lweList w.bytes
  | .plaintext w => .scalar w.bytes
  | .plaintextVector w => .tensor w.bytes
  | .floatEncoder => .floatEncoder
  | .floatEncoderVector => .seq .floatEncoder

/-! ### Entities of the FFT backend -/

/-- A complex number of the Fourier domain by the bits of its two `f64`. -/
abbrev C64 := BitVec 64 × BitVec 64

/-- The external `concrete_fft::Plan`: which sizes a plan can be built for, and its own
serialization of one buffer of `n` complex numbers (`serialize_fourier_buffer`,
`deserialize_fourier_buffer`). -/
structure PlanCodec where
  planOk : Nat → Bool
  enc : Nat → List C64 → List Byte
  dec : Nat → List Byte → Option (List C64 × List Byte)

/-- fft/private/math/fft/mod.rs:525-529 `FourierPolynomialList`. -/
structure FourierList where
  data : List C64
  polySize : Nat
  deriving DecidableEq

/-- mod.rs:531-579 `Serialize for FourierPolynomialList`: a sequence of `2 + chunk_count` elements:
the polynomial size, the number of polynomials, the polynomials. Division by zero for polynomial
size 1 panics, and so does building a plan for an unsupported size. The data are a whole number of
polynomials (`split_into` asserts it in debug builds). -/
def FourierList.enc (P : PlanCodec) (x : FourierList) : Option (List Byte) :=
  if x.polySize = 0 then some (leBytes 8 2 ++ leBytes 8 0 ++ leBytes 8 0)
  else if x.polySize / 2 = 0 then none
  else
    let count := x.data.length / (x.polySize / 2)
    let header := leBytes 8 (2 + count) ++ leBytes 8 x.polySize ++ leBytes 8 count
    if count = 0 then some header
    else if P.planOk (x.polySize / 2) then
      some (header ++ (chunks (x.data.length / count) x.data).flatMap (P.enc (x.polySize / 2)))
    else none

/-- One element of the sequence for each remaining buffer: `Some(())`, or an error when the sequence
announces fewer elements (mod.rs:633-646). -/
def fillChunks (P : PlanCodec) (n : Nat) : Nat → Nat → List Byte →
    Option (List C64 × List Byte)
  | 0, _, bs => some ([], bs)
  | _ + 1, 0, _ => none
  | k + 1, left + 1, bs =>
    match P.dec n bs with
    | none => none
    | some (c, r) =>
      match fillChunks P n k left r with
      | none => none
      | some (cs, r') => some (c ++ cs, r')

/-- mod.rs:581-658 `Deserialize for FourierPolynomialList`: the size and the count are used before
they are validated. `err` is a bincode error. `N / 2 * count` overflows with a panic in debug builds
and wraps in release builds; a zero-length chunk and an unsupported plan size panic. Memory
exhaustion is not modelled. After a wrapped product the buffers do not have the length of the plan,
which the external plan rejects by a panic (simplification: trusted). -/
def FourierList.dec (P : PlanCodec) (bld : Csprng.Build) (bs : List Byte) :
    Res Unit (FourierList × List Byte) :=
  match takeBytes 8 bs with
  | none => .err ()
  | some (len, r) =>
    match (ofLe len : Nat) with
    | 0 => .err ()
    | len + 1 =>
      match takeBytes 8 r with
      | none => .err ()
      | some (N, r) =>
        match len with
        | 0 => .err ()
        | left + 1 =>
          match takeBytes 8 r with
          | none => .err ()
          | some (count, r) =>
            let N := ofLe N
            let count := ofLe count
            match Csprng.Build.mulUsize bld (N / 2) count with
            | none => .panic
            | some total =>
              if count = 0 then .ok (⟨[], N⟩, r)
              else if !P.planOk (N / 2) then .panic
              else if total / count = 0 ∨ total / count ≠ N / 2 then .panic
              else
                match fillChunks P (N / 2) count left r with
                | none => .err ()
                | some (data, r') => .ok (⟨data, N⟩, r')

/-- fft/private/crypto/ggsw.rs:34-39 `FourierGgswCiphertext { fourier, glwe_size,
decomposition_base_log, decomposition_level_count }` and fft/private/crypto/bootstrap.rs:27-33
`FourierLweBootstrapKey { fourier, key_size, glwe_size, decomposition_base_log,
decomposition_level_count }`: a list of Fourier polynomials followed by fixed-width numbers. -/
structure FourierEntity (tail : Schema) where
  fourier : FourierList
  fields : Val tail

/-- The fields of a Fourier GGSW ciphertext after its polynomials. -/
def Schema.fourierGgswTail : Schema := .pair .usize (.pair .usize .usize)
/-- The fields of a Fourier bootstrap key after its polynomials. -/
def Schema.fourierBskTail : Schema := .pair .usize (.pair .usize (.pair .usize .usize))

/-- fft_serialization_engine/serialization.rs:62-83 `serialize`. -/
def fourierSerialize (P : PlanCodec) (tail : Schema) (x : FourierEntity tail) :
    Res SErr (List Byte) :=
  match x.fourier.enc P with
  | none => .panic
  | some b => .ok (leBytes 4 Version.v0.tag ++ b ++ enc tail x.fields)

/-- fft_serialization_engine/deserialization.rs:64-91 `deserialize`. -/
def fourierDeserialize (P : PlanCodec) (bld : Csprng.Build) (tail : Schema) (bs : List Byte) :
    Res SErr (FourierEntity tail) :=
  match takeBytes 4 bs with
  | none => .err .deserialization
  | some (t, r) =>
    match FourierList.dec P bld r with
    | .panic => .panic
    | .err _ => .err .deserialization
    | .ok (f, r) =>
      match dec tail r with
      | none => .err .deserialization
      | some (y, _) =>
        match Version.ofTag (ofLe t) with
        | .unsupported => .err .unsupportedVersion
        | .v0 => .ok ⟨f, y⟩

end Verif.Serde
