import Verif.Serde.Lemmas
/-
C42: serialization of the entities. `deserialize (serialize x) = x`, truncated input and unsupported
versions are rejected.
-/
namespace Verif.Serde

open Verif

/-- **C42, round trip.** Every entity of the default backend (whose vectors have a length that fits
`usize`, as every Rust vector does) can be serialized, and the bytes deserialize to the same entity;
bytes after the serialized entity are ignored. -/
theorem C42_round_trip (e : Entity) (x : Val e.schema) (hx : Fits e.schema x) :
    ∃ bytes, serialize e.schema x = .ok bytes ∧
      deserialize e.schema bytes = .ok x ∧
      ∀ rest, deserialize e.schema (bytes ++ rest) = .ok x := by
  have key : ∀ rest, deserialize e.schema
      ((leBytes 4 Version.v0.tag ++ enc e.schema x) ++ rest) = .ok x := by
    intro rest
    simp only [deserialize, List.append_assoc, takeBytes_le, dec_enc _ x rest hx]
    rfl
  exact ⟨_, rfl, by simpa using key [], key⟩

/-- Two entities with the same bytes are equal. -/
theorem C42_injective (e : Entity) (x y : Val e.schema) (hx : Fits e.schema x)
    (hy : Fits e.schema y) (h : serialize e.schema x = serialize e.schema y) : x = y := by
  obtain ⟨b, h1, h2, _⟩ := C42_round_trip e x hx
  obtain ⟨b', h1', h2', _⟩ := C42_round_trip e y hy
  rw [h1, h1'] at h
  cases h
  rw [h2] at h2'
  cases h2'
  rfl

/-- **C42, truncation.** Every strict prefix of a serialized entity is rejected with a
deserialization error. -/
theorem C42_truncated (e : Entity) (x : Val e.schema) (hx : Fits e.schema x) (bytes p c : List Byte)
    (hb : serialize e.schema x = .ok bytes) (hp : bytes = p ++ c) (hc : c ≠ []) :
    deserialize e.schema p = .err .deserialization := by
  cases hb
  simp only [deserialize]
  cases h1 : takeBytes 4 p with
  | none => rfl
  | some q =>
    obtain ⟨t, r⟩ := q
    simp only
    cases h2 : dec e.schema r with
    | none => rfl
    | some q =>
      obtain ⟨y, r'⟩ := q
      exfalso
      have h3 := takeBytes_stable _ _ _ _ c h1
      rw [← hp, takeBytes_le] at h3
      simp only [Option.some.injEq, Prod.mk.injEq] at h3
      have h4 := dec_stable _ _ _ _ c h2
      have h5 := dec_enc _ x [] hx
      rw [List.append_nil, h3.2, h4] at h5
      simp only [Option.some.injEq, Prod.mk.injEq, List.append_eq_nil_iff] at h5
      exact hc h5.2.2

/-- **C42, version, the part that holds.** Bytes with an unsupported version tag in front of content
laid out like the supported version are rejected with `UnsupportedVersion`.
Missing for the full statement: content in another layout, see `C42_version_violated`. -/
theorem C42_unsupported_version_partial (e : Entity) (x : Val e.schema) (hx : Fits e.schema x)
    (t : Nat) (ht : t < 2 ^ 32) (h0 : t ≠ 0) (rest : List Byte) :
    deserialize e.schema (leBytes 4 t ++ (enc e.schema x ++ rest)) = .err .unsupportedVersion := by
  simp only [deserialize, takeBytes_le, dec_enc _ x rest hx, ofLe_leBytes 4 t ht, Version.ofTag,
    if_neg h0]

/-- Whatever follows an unsupported version tag, the bytes are rejected, never accepted. -/
theorem C42_unsupported_never_accepted (e : Entity) (t : Nat) (ht : t < 2 ^ 32) (h0 : t ≠ 0)
    (rest : List Byte) :
    deserialize e.schema (leBytes 4 t ++ rest) = .err .unsupportedVersion ∨
      deserialize e.schema (leBytes 4 t ++ rest) = .err .deserialization := by
  simp only [deserialize, takeBytes_le, ofLe_leBytes 4 t ht, Version.ofTag, if_neg h0]
  cases dec e.schema rest with
  | none => exact .inr rfl
  | some q => exact .inl rfl

/-- **C42, version, violated.** An entity written by a version with another layout (here a 32-bit
cleartext whose content takes one byte) is rejected with a deserialization error instead of
`UnsupportedVersion`: the content is parsed before the version is looked at. -/
theorem C42_version_violated :
    deserialize (Entity.cleartext .u32).schema (leBytes 4 1 ++ [7]) = .err .deserialization := by
  rfl

/-- Bytes that are accepted are the serialization of the entity returned, followed by ignored bytes:
no other encoding of an entity is accepted. -/
theorem C42_canonical (e : Entity) (bs : List Byte) (x : Val e.schema)
    (h : deserialize e.schema bs = .ok x) :
    ∃ bytes rest, serialize e.schema x = .ok bytes ∧ bs = bytes ++ rest := by
  simp only [deserialize] at h
  cases h1 : takeBytes 4 bs with
  | none => simp [h1] at h
  | some q =>
    obtain ⟨t, r⟩ := q
    simp only [h1] at h
    cases h2 : dec e.schema r with
    | none => simp [h2] at h
    | some q =>
      obtain ⟨y, r'⟩ := q
      simp only [h2] at h
      obtain ⟨rfl, ht⟩ := takeBytes_eq h1
      have hr := dec_canonical _ _ _ _ h2
      by_cases h0 : ofLe t = 0
      · simp only [Version.ofTag, if_pos h0] at h
        cases h
        refine ⟨_, r', rfl, ?_⟩
        have := leBytes_ofLe t
        rw [ht, h0] at this
        rw [hr, ← this]
        simp [Version.tag]
      · simp [Version.ofTag, h0] at h

/-- No input makes the deserialization of an entity of the default backend panic. -/
theorem C42_no_panic (e : Entity) (bs : List Byte) : deserialize e.schema bs ≠ .panic := by
  simp only [deserialize]
  cases takeBytes 4 bs with
  | none => simp
  | some q =>
    simp only
    cases dec e.schema q.2 with
    | none => simp
    | some p =>
      simp only
      cases Version.ofTag (ofLe q.1) <;> simp

/-! Witnesses: a GLWE ciphertext vector and an encoder. -/
example : Fits (Entity.glweCiphertextVector .u32).schema
    ((([1, 2, 3, 4] : List (BitVec 32)), ((2 : BitVec 64), (2 : BitVec 64)))) := by
  refine ⟨⟨by show 4 < 2 ^ 64; omega, fun v _ => trivial⟩, trivial, trivial⟩

example : serialize (Entity.lweSecretKey .u32).schema
    ((([1, 0x01020304] : List (BitVec 32)), ())) =
    .ok [0, 0, 0, 0, 2, 0, 0, 0, 0, 0, 0, 0, 1, 0, 0, 0, 4, 3, 2, 1] := by rfl

example : serialize Entity.floatEncoder.schema
    ((1 : BitVec 64), (2 : BitVec 64), (3 : BitVec 64), (4 : BitVec 64), true) =
    .ok ([0, 0, 0, 0] ++ [1, 0, 0, 0, 0, 0, 0, 0] ++ [2, 0, 0, 0, 0, 0, 0, 0] ++
      [3, 0, 0, 0, 0, 0, 0, 0] ++ [4, 0, 0, 0, 0, 0, 0, 0] ++ [1]) := by rfl

/-! ### Entities of the FFT backend -/

/-- What is assumed of the external plan: a buffer of the size of the plan survives its own round
trip, and reading does not depend on what follows. -/
structure PlanCodec.Faithful (P : PlanCodec) : Prop where
  round : ∀ n buf c, P.planOk n = true → buf.length = n → P.dec n (P.enc n buf ++ c) = some (buf, c)
  stable : ∀ n, Stable (P.dec n)

/-- A list of `count` Fourier polynomials of a size a plan exists for. -/
def FourierList.Valid (P : PlanCodec) (x : FourierList) (count : Nat) : Prop :=
  2 ≤ x.polySize ∧ x.polySize < 2 ^ 64 ∧ x.data.length = count * (x.polySize / 2) ∧
    x.data.length < 2 ^ 64 ∧ count + 2 < 2 ^ 64 ∧ P.planOk (x.polySize / 2) = true

theorem fourier_dec_enc (P : PlanCodec) (hP : P.Faithful) (bld : Csprng.Build) (x : FourierList)
    (count : Nat) (hx : x.Valid P count) :
    ∃ b, x.enc P = some b ∧ ∀ c, FourierList.dec P bld (b ++ c) = .ok (x, c) := by
  obtain ⟨hN, hN64, hl, hl64, hc64, hok⟩ := hx
  have hn : 0 < x.polySize / 2 := by omega
  have hcount : x.data.length / (x.polySize / 2) = count := by rw [hl]; exact Nat.mul_div_cancel _ hn
  have hmul : ∀ bld : Csprng.Build, bld.mulUsize (x.polySize / 2) count =
      some (x.polySize / 2 * count) := fun bld =>
    Csprng.mulUsize_ok bld (by rw [Nat.mul_comm, ← hl]; exact hl64)
  have e1 : ofLe (leBytes 8 (2 + count)) = count + 1 + 1 := by
    rw [ofLe_leBytes 8 _ (by omega)]; omega
  have e2 : ofLe (leBytes 8 x.polySize) = x.polySize := ofLe_leBytes 8 _ (by omega)
  have e3 : ofLe (leBytes 8 count) = count := ofLe_leBytes 8 _ (by omega)
  by_cases hc : count = 0
  · refine ⟨leBytes 8 (2 + count) ++ leBytes 8 x.polySize ++ leBytes 8 count, ?_, ?_⟩
    · simp only [FourierList.enc, hcount]
      rw [if_neg (by omega), if_neg (by omega), if_pos hc]
    · intro c
      simp only [FourierList.dec, List.append_assoc, takeBytes_le, e1, e2, e3, hmul, if_pos hc]
      have hd : x.data = [] := List.length_eq_zero_iff.mp (by rw [hl, hc, Nat.zero_mul])
      rw [show x = ⟨x.data, x.polySize⟩ from rfl, hd]
  · refine ⟨leBytes 8 (2 + count) ++ leBytes 8 x.polySize ++ leBytes 8 count ++
        (chunks (x.polySize / 2) x.data).flatMap (P.enc (x.polySize / 2)), ?_, ?_⟩
    · simp only [FourierList.enc, hcount]
      rw [if_neg (by omega), if_neg (by omega), if_neg hc, if_pos hok,
        show x.data.length / count = x.polySize / 2 by
          rw [hl, Nat.mul_comm]; exact Nat.mul_div_cancel _ (Nat.pos_of_ne_zero hc)]
    · intro c
      have hd : x.polySize / 2 * count / count = x.polySize / 2 :=
        Nat.mul_div_cancel _ (Nat.pos_of_ne_zero hc)
      have hch := chunks_length _ hn _ _ hl
      have hfill := fillChunks_flatMap P (x.polySize / 2)
        (fun buf c hb => hP.round _ buf c hok hb) (chunks (x.polySize / 2) x.data) count c
        (by
          intro b hb
          rw [chunks_eq _ hn _ _ hl, List.mem_map] at hb
          obtain ⟨i, hi, rfl⟩ := hb
          rw [List.mem_range] at hi
          have : (i + 1) * (x.polySize / 2) ≤ count * (x.polySize / 2) :=
            Nat.mul_le_mul_right _ (by omega)
          rw [Nat.add_mul] at this
          simp only [block, List.length_take, List.length_drop, hl]
          omega) (by rw [hch])
      rw [hch, chunks_flatten _ hn] at hfill
      simp only [FourierList.dec, List.append_assoc, takeBytes_le, e1, e2, e3, hmul, if_neg hc, hok,
        hd]
      rw [if_neg (by simp), if_neg (by omega)]
      simp only [hfill]

/-- **C42, Fourier entities.** A Fourier GGSW ciphertext or bootstrap key (whatever the fields after
its polynomials) survives a round trip, in both builds. -/
theorem C42_fourier_round_trip (P : PlanCodec) (hP : P.Faithful) (bld : Csprng.Build)
    (tail : Schema) (x : FourierEntity tail) (count : Nat) (hx : x.fourier.Valid P count)
    (hf : Fits tail x.fields) :
    ∃ bytes, fourierSerialize P tail x = .ok bytes ∧
      fourierDeserialize P bld tail bytes = .ok x ∧
      ∀ rest, fourierDeserialize P bld tail (bytes ++ rest) = .ok x := by
  obtain ⟨b, hb, hd⟩ := fourier_dec_enc P hP bld x.fourier count hx
  have key : ∀ rest, fourierDeserialize P bld tail
      ((leBytes 4 Version.v0.tag ++ b ++ enc tail x.fields) ++ rest) = .ok x := by
    intro rest
    simp only [fourierDeserialize, List.append_assoc, takeBytes_le, hd, dec_enc _ _ rest hf]
    rfl
  exact ⟨_, by simp only [fourierSerialize, hb], by simpa using key [], key⟩

/-- Every strict prefix of a serialized Fourier entity is rejected with a deserialization error; in
particular it does not panic. -/
theorem C42_fourier_truncated (P : PlanCodec) (hP : P.Faithful) (bld : Csprng.Build)
    (tail : Schema) (x : FourierEntity tail) (count : Nat) (hx : x.fourier.Valid P count)
    (hf : Fits tail x.fields) (bytes p c : List Byte)
    (hs : fourierSerialize P tail x = .ok bytes) (hp : bytes = p ++ c) (hc : c ≠ []) :
    fourierDeserialize P bld tail p = .err .deserialization := by
  obtain ⟨b, hb, hd⟩ := fourier_dec_enc P hP bld x.fourier count hx
  simp only [fourierSerialize, hb] at hs
  cases hs
  simp only [fourierDeserialize]
  cases h1 : takeBytes 4 p with
  | none => rfl
  | some q =>
    obtain ⟨t, r⟩ := q
    have h3 := takeBytes_stable _ _ _ _ c h1
    rw [← hp, List.append_assoc, takeBytes_le] at h3
    simp only [Option.some.injEq, Prod.mk.injEq] at h3
    have hst := FourierList.dec_stable P hP.stable bld r c
    rw [← h3.2, hd] at hst
    simp only
    cases h2 : FourierList.dec P bld r with
    | panic => exact absurd (hst.2 h2) (by simp)
    | err _ => rfl
    | ok q =>
      obtain ⟨f, r'⟩ := q
      have := hst.1 _ _ h2
      simp only [Res.ok.injEq, Prod.mk.injEq] at this
      simp only
      cases h4 : dec tail r' with
      | none => rfl
      | some q =>
        obtain ⟨y, r''⟩ := q
        exfalso
        have h5 := dec_stable _ _ _ _ c h4
        rw [← this.2] at h5
        have h6 := dec_enc _ x.fields [] hf
        rw [List.append_nil, h5] at h6
        simp only [Option.some.injEq, Prod.mk.injEq, List.append_eq_nil_iff] at h6
        exact hc h6.2.2

/-- An unsupported version of a Fourier entity is rejected. -/
theorem C42_fourier_unsupported_version_partial (P : PlanCodec) (hP : P.Faithful)
    (bld : Csprng.Build) (tail : Schema) (x : FourierEntity tail) (count : Nat)
    (hx : x.fourier.Valid P count) (hf : Fits tail x.fields) (t : Nat) (ht : t < 2 ^ 32)
    (h0 : t ≠ 0) (rest : List Byte) (b : List Byte) (hb : x.fourier.enc P = some b) :
    fourierDeserialize P bld tail (leBytes 4 t ++ (b ++ (enc tail x.fields ++ rest))) =
      .err .unsupportedVersion := by
  obtain ⟨b', hb', hd⟩ := fourier_dec_enc P hP bld x.fourier count hx
  rw [hb] at hb'
  cases hb'
  simp only [fourierDeserialize, takeBytes_le, hd, dec_enc _ _ rest hf, ofLe_leBytes 4 t ht,
    Version.ofTag, if_neg h0]

/-- **C42, malformed Fourier entities panic.** Whatever the external plan, 28 bytes that announce one
polynomial of size 0 make the deserialization panic instead of returning an error: the size is used
before it is validated. -/
theorem C42_fourier_malformed_panics (P : PlanCodec) (bld : Csprng.Build) (tail : Schema)
    (rest : List Byte) :
    fourierDeserialize P bld tail
      (leBytes 4 0 ++ (leBytes 8 3 ++ (leBytes 8 0 ++ (leBytes 8 1 ++ rest)))) = .panic := by
  have e1 : ofLe (leBytes 8 3) = 1 + 1 + 1 := by rfl
  have e2 : ofLe (leBytes 8 0) = 0 := by rfl
  have e3 : ofLe (leBytes 8 1) = 1 := by rfl
  have hm : bld.mulUsize (0 / 2) 1 = some 0 := by cases bld <;> rfl
  simp only [fourierDeserialize, takeBytes_le, FourierList.dec, e1, e2, e3, hm]
  by_cases hp : (!P.planOk (0 / 2)) = true
  · simp [hp]
  · simp [hp]

/-- A concrete plan for the witnesses: every size, buffers written as a sequence of pairs. -/
def seqCodec : PlanCodec where
  planOk n := decide (n < 2 ^ 64)
  enc _ buf := enc (.seq (.pair (.word 8) (.word 8))) buf
  dec n bs :=
    match dec (.seq (.pair (.word 8) (.word 8))) bs with
    | none => none
    | some (l, r) => if List.length (α := C64) l = n then some (l, r) else none

theorem seqCodec_faithful : seqCodec.Faithful where
  round n buf c hn hl := by
    have hn : n < 2 ^ 64 := by simpa [seqCodec] using hn
    have h := dec_enc (.seq (.pair (.word 8) (.word 8))) buf c
      ⟨(hl ▸ hn : buf.length < 2 ^ 64), fun v _ => ⟨trivial, trivial⟩⟩
    simp only [seqCodec, h]
    exact if_pos hl
  stable n := by
    intro bs x r c h
    simp only [seqCodec] at h ⊢
    cases h1 : dec (.seq (.pair (.word 8) (.word 8))) bs with
    | none => simp [h1] at h
    | some q =>
      obtain ⟨l, r'⟩ := q
      simp only [h1] at h
      simp only [dec_stable _ _ _ _ c h1]
      split at h
      · rename_i hl
        rw [if_pos hl]
        cases h
        rfl
      · exact absurd h (by simp)

/-- Two polynomials of size 4: the hypotheses of the Fourier theorems are met. -/
example : FourierList.Valid seqCodec ⟨[(1, 2), (3, 4), (5, 6), (7, 8)], 4⟩ 2 := by
  refine ⟨?_, ?_, ?_, ?_, ?_, ?_⟩ <;> decide

end Verif.Serde
