import Verif.Serde.Kinds
/-
C107: the kind of a serialized entity is not recorded in its bytes.
-/
namespace Verif.Serde

open Verif

/-- **C107, exactly when the bytes of one kind are accepted as another kind.** For all kinds of
entities which start with a tensor, the bytes of an entity with `n` words are accepted as another kind
exactly when this kind, with `n` words of its own width, needs no more bytes; otherwise they are
rejected with a deserialization error. The entity read has `n` words, and for kinds of one width these
are the words of the entity that was written. -/
theorem C107_accepted_iff (e e' : Entity) (b t b' t' : Nat) (he : e.layout = some (b, t))
    (he' : e'.layout = some (b', t')) (x : Val e.schema) (hx : Fits e.schema x) (bytes : List Byte)
    (hb : serialize e.schema x = .ok bytes) :
    ((∃ y, deserialize e'.schema bytes = .ok y) ↔
        (words e.schema x).length * b' + t' ≤ (words e.schema x).length * b + t) ∧
      ((words e.schema x).length * b + t < (words e.schema x).length * b' + t' →
        deserialize e'.schema bytes = .err .deserialization) ∧
      ∀ y, deserialize e'.schema bytes = .ok y →
        (words e'.schema y).length = (words e.schema x).length ∧
          (b = b' → words e'.schema y = words e.schema x) := by
  cases hb
  have H := e.headed b t he
  have H' := e'.headed b' t' he'
  have hn := H.fits x hx
  obtain ⟨tl, henc, htl, hlen⟩ := H.enc_eq x
  obtain ⟨l, hl, hlf⟩ := H.words_eq x
  set n := (words e.schema x).length with hndef
  have hrl : ((words e.schema x).flatMap (leBytes b) ++ tl).length = n * b + t := by
    rw [List.length_append, hlen, htl]
  have hd := H'.dec_iff n hn ((words e.schema x).flatMap (leBytes b) ++ tl)
  rw [hrl] at hd
  have hdes : deserialize e'.schema (leBytes 4 Version.v0.tag ++ enc e.schema x) =
      match dec e'.schema (leBytes 8 n ++ ((words e.schema x).flatMap (leBytes b) ++ tl)) with
      | none => .err .deserialization
      | some (y, _) => .ok y := by
    rw [henc]
    simp only [deserialize, takeBytes_le]
    cases dec e'.schema (leBytes 8 n ++ ((words e.schema x).flatMap (leBytes b) ++ tl)) <;> rfl
  rw [hdes]
  by_cases hc : n * b' + t' ≤ n * b + t
  · obtain ⟨y, r, hy, hyn⟩ := hd.1 hc
    rw [hy]
    refine ⟨⟨fun _ => hc, fun _ => ⟨y, rfl⟩⟩, fun h => absurd hc (by omega), ?_⟩
    intro z hz
    cases hz
    refine ⟨hyn, ?_⟩
    rintro rfl
    rw [hlf] at hy
    have hnl : n = l.length := by rw [hndef, hl, List.length_map]
    rw [hl]
    refine H'.dec_words l (by omega) tl y r ?_
    rw [← hnl]
    exact hy
  · rw [hd.2 (by omega)]
    refine ⟨⟨?_, fun h => absurd h hc⟩, fun _ => rfl, ?_⟩
    · rintro ⟨y, hy⟩
      exact absurd hy (by simp)
    · intro y hy
      exact absurd hy (by simp)

/-- **C107, violated.** The bytes of an LWE secret key are accepted as an LWE ciphertext, as a
plaintext vector and as a cleartext vector, and those of a GLWE secret key as a GLWE ciphertext, an
LWE ciphertext vector and an LWE public key; the words are those of the key. -/
theorem C107_secret_key_violated (w : Width) :
    (∀ (x : Val (Entity.lweSecretKey w).schema) bytes, Fits (Entity.lweSecretKey w).schema x →
      serialize (Entity.lweSecretKey w).schema x = .ok bytes →
      ∀ e ∈ [Entity.lweCiphertext w, .plaintextVector w, .cleartextVector w],
        ∃ y, deserialize e.schema bytes = .ok y ∧
          words e.schema y = words (Entity.lweSecretKey w).schema x) ∧
    (∀ (x : Val (Entity.glweSecretKey w).schema) bytes, Fits (Entity.glweSecretKey w).schema x →
      serialize (Entity.glweSecretKey w).schema x = .ok bytes →
      ∀ e ∈ [Entity.glweCiphertext w, .lweCiphertextVector w, .lwePublicKey w],
        ∃ y, deserialize e.schema bytes = .ok y ∧
          words e.schema y = words (Entity.glweSecretKey w).schema x) := by
  constructor
  · intro x bytes hx hb e he
    have hl : e.layout = some (w.bytes, 0) := by
      simp only [List.mem_cons, List.not_mem_nil, or_false] at he
      rcases he with rfl | rfl | rfl <;> rfl
    obtain ⟨h1, -, h3⟩ := C107_accepted_iff (.lweSecretKey w) e _ _ _ _ rfl hl x hx bytes hb
    obtain ⟨y, hy⟩ := h1.2 (le_refl _)
    exact ⟨y, hy, (h3 y hy).2 rfl⟩
  · intro x bytes hx hb e he
    have hl : e.layout = some (w.bytes, 8) := by
      simp only [List.mem_cons, List.not_mem_nil, or_false] at he
      rcases he with rfl | rfl | rfl <;> rfl
    obtain ⟨h1, -, h3⟩ := C107_accepted_iff (.glweSecretKey w) e _ _ _ _ rfl hl x hx bytes hb
    obtain ⟨y, hy⟩ := h1.2 (le_refl _)
    exact ⟨y, hy, (h3 y hy).2 rfl⟩

/-- The bytes after the tensor are at most 48, in every kind. -/
theorem layout_bounds (e : Entity) (b t : Nat) (h : e.layout = some (b, t)) : t ≤ 48 := by
  cases e <;> simp only [Entity.layout, Option.some.injEq, Prod.mk.injEq, reduceCtorEq] at h <;>
    omega

/-- **C107, the part that holds.** The bytes of an entity of 32-bit words with more than 12 words are
rejected by every kind of 64-bit words.
Missing for the full statement: kinds of one width, and 64-bit entities read as 32-bit entities, see
`C107_secret_key_violated` and `C107_width_violated`. -/
theorem C107_width_partial (e e' : Entity) (t t' : Nat) (he : e.layout = some (4, t))
    (he' : e'.layout = some (8, t')) (x : Val e.schema) (hx : Fits e.schema x) (bytes : List Byte)
    (hb : serialize e.schema x = .ok bytes) (hn : 12 < (words e.schema x).length) :
    deserialize e'.schema bytes = .err .deserialization := by
  obtain ⟨-, h2, -⟩ := C107_accepted_iff e e' _ _ _ _ he he' x hx bytes hb
  have := layout_bounds e _ _ he
  exact h2 (by omega)

/-- **C107, violated.** The bytes of an entity of 64-bit words with at least 12 words are accepted by
every kind of 32-bit words, as an entity with the same number of words. -/
theorem C107_width_violated (e e' : Entity) (t t' : Nat) (he : e.layout = some (8, t))
    (he' : e'.layout = some (4, t')) (x : Val e.schema) (hx : Fits e.schema x) (bytes : List Byte)
    (hb : serialize e.schema x = .ok bytes) (hn : 12 ≤ (words e.schema x).length) :
    ∃ y, deserialize e'.schema bytes = .ok y ∧
      (words e'.schema y).length = (words e.schema x).length := by
  obtain ⟨h1, -, h3⟩ := C107_accepted_iff e e' _ _ _ _ he he' x hx bytes hb
  have := layout_bounds e' _ _ he'
  obtain ⟨y, hy⟩ := h1.2 (by omega)
  exact ⟨y, hy, (h3 y hy).1⟩

/-- **C107, violated: the dimensions read are not checked.** For every tensor and every size there are
bytes which are accepted as an LWE ciphertext vector of these words and this size. With the size zero,
asking the entity for its number of ciphertexts panics in every build; with a size that does not
divide the number of words, it panics in a debug build and forgets the words left over in a release
build. -/
theorem C107_dimensions_violated (ws : List (BitVec 64)) (hws : ws.length < 2 ^ 64) (size : BitVec 64) :
    ∃ bytes, deserialize (Entity.lweCiphertextVector .u64).schema bytes =
        .ok ((ws, size) : List (BitVec 64) × BitVec 64) ∧
      (size = 0 → ∀ m, (Entity.LweList.mk ws size.toNat).count m = none) ∧
      (size ≠ 0 → ¬ size.toNat ∣ ws.length →
        (Entity.LweList.mk ws size.toNat).count .debug = none ∧
        (Entity.LweList.mk ws size.toNat).count .release = some (ws.length / size.toNat)) := by
  obtain ⟨bytes, -, h, -⟩ := C42_round_trip (.lweCiphertextVector .u64)
    ((ws, size) : List (BitVec 64) × BitVec 64)
    ⟨⟨hws, fun _ _ => trivial⟩, trivial⟩
  refine ⟨bytes, h, ?_, ?_⟩
  · rintro rfl m
    cases m <;> simp [Entity.LweList.count, Entity.divU]
  · intro h0 hd
    have h0' : size.toNat ≠ 0 := fun h => h0 (BitVec.eq_of_toNat_eq (by simpa using h))
    have hm : ws.length % size.toNat ≠ 0 := fun h => hd (Nat.dvd_of_mod_eq_zero h)
    have hp : Entity.prodU .debug [size.toNat] = some size.toNat := by
      simp [Entity.prodU, Entity.mulU, size.isLt]
    constructor <;> simp [Entity.LweList.count, Entity.ckDimDiv, Entity.divU, h0', hm, hp]

/-! Witnesses: the bytes of a 32-bit LWE secret key with two words, read as a ciphertext; a GGSW
ciphertext read as a keyswitch key; a 32-bit key rejected as a 64-bit key. -/
example : ∃ bytes, serialize (Entity.lweSecretKey .u32).schema
      (([1, 0], ()) : List (BitVec 32) × Unit) = .ok bytes ∧
    deserialize (Entity.lweCiphertext .u32).schema bytes = .ok ([1, 0] : List (BitVec 32)) ∧
    deserialize (Entity.lweSecretKey .u64).schema bytes = .err .deserialization :=
  ⟨[0, 0, 0, 0, 2, 0, 0, 0, 0, 0, 0, 0, 1, 0, 0, 0, 0, 0, 0, 0], rfl, rfl, rfl⟩

example : (Entity.ggswCiphertext .u64).layout = (Entity.lweKeyswitchKey .u64).layout ∧
    (Entity.ggswCiphertext .u64).layout = some (8, 24) := ⟨rfl, rfl⟩

example : ∃ x : Val (Entity.lweSecretKey .u32).schema, Fits (Entity.lweSecretKey .u32).schema x ∧
    12 < (words (Entity.lweSecretKey .u32).schema x).length :=
  ⟨((List.replicate 13 1, ()) : List (BitVec 32) × Unit),
    ⟨⟨by show 13 < 2 ^ 64; omega, fun _ _ => trivial⟩, trivial⟩, by decide⟩

example : ∃ x : Val (Entity.lweKeyswitchKey .u64).schema,
    Fits (Entity.lweKeyswitchKey .u64).schema x ∧
    12 ≤ (words (Entity.lweKeyswitchKey .u64).schema x).length :=
  ⟨((List.replicate 12 1, 3, 2, 3) : List (BitVec 64) × BitVec 64 × BitVec 64 × BitVec 64),
    ⟨⟨by show 12 < 2 ^ 64; omega, fun _ _ => trivial⟩, trivial, trivial, trivial⟩, by decide⟩

end Verif.Serde
