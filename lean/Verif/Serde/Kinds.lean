import Verif.Serde.Props
import Verif.Entity.Model
/-
Reading the bytes of one kind of entity as another kind: what the tables of C107 are stated with.
-/
namespace Verif.Serde

open Verif

/-- The kinds which start with a tensor, with the number of bytes of a word of the tensor and the
number of bytes after it. Written from the declarations of the entities, independently of
`Entity.schema`: a dimension takes 8 bytes, a seed 16 bytes. -/
def Entity.layout : Entity → Option (Nat × Nat)
  | .cleartextVector w => some (w.bytes, 0)
  | .cleartextVectorF64 => some (8, 0)
  | .plaintextVector w => some (w.bytes, 0)
  | .lweCiphertext w => some (w.bytes, 0)
  | .lweSecretKey w => some (w.bytes, 0)
  | .glweSecretKey w => some (w.bytes, 8)
  | .glweCiphertext w => some (w.bytes, 8)
  | .lweCiphertextVector w => some (w.bytes, 8)
  | .lwePublicKey w => some (w.bytes, 8)
  | .glweCiphertextVector w => some (w.bytes, 16)
  | .glweSeededCiphertext w => some (w.bytes, 24)
  | .lweSeededCiphertextVector w => some (w.bytes, 24)
  | .ggswCiphertext w => some (w.bytes, 24)
  | .lweKeyswitchKey w => some (w.bytes, 24)
  | .glweSeededCiphertextVector w => some (w.bytes, 32)
  | .lweBootstrapKey w => some (w.bytes, 32)
  | .lwePackingKeyswitchKey w => some (w.bytes, 32)
  | .ggswSeededCiphertext w => some (w.bytes, 40)
  | .lweSeededKeyswitchKey w => some (w.bytes, 40)
  | .cbsPfpksk w => some (w.bytes, 40)
  | .lweSeededBootstrapKey w => some (w.bytes, 48)
  | .cleartext _ | .cleartextF64 | .plaintext _ | .lweSeededCiphertext _
  | .floatEncoder | .floatEncoderVector => none

/-- The words of the tensor an entity starts with. -/
def words : (s : Schema) → Val s → List Nat
  | .seq (.word n), vs => (show List (BitVec (8 * n)) from vs).map BitVec.toNat
  | .pair a _, v => words a v.1
  | .seq .bool, _ | .seq .unit, _ | .seq (.seq _), _ | .seq (.pair _ _), _ => []
  | .word _, _ | .bool, _ | .unit, _ => []

/-! ### Parsers which read a fixed number of bytes -/

/-- A parser which reads `k` bytes whatever they are. -/
def Reads {α : Type} (f : List Byte → Option (α × List Byte)) (k : Nat) : Prop :=
  ∀ bs, (k ≤ bs.length → ∃ y, f bs = some (y, bs.drop k)) ∧ (bs.length < k → f bs = none)

/-- The number of bytes of a shape without vectors and booleans. -/
def Schema.size : Schema → Option Nat
  | .word n => some n
  | .unit => some 0
  | .pair a b => do return (← a.size) + (← b.size)
  | .bool | .seq _ => none

theorem reads_word (n : Nat) : Reads (dec (.word n)) n := by
  intro bs
  refine ⟨fun h => ?_, fun h => ?_⟩
  · simp only [dec, takeBytes, if_neg (Nat.not_lt.mpr h)]
    exact ⟨_, rfl⟩
  · simp only [dec, takeBytes, if_pos h]

theorem reads_size : ∀ (s : Schema) (k : Nat), s.size = some k → Reads (dec s) k
  | .word n, k, h => by
    simp only [Schema.size, Option.some.injEq] at h
    subst h
    exact reads_word n
  | .unit, k, h => by
    simp only [Schema.size, Option.some.injEq] at h
    subst h
    intro bs
    exact ⟨fun _ => ⟨(), rfl⟩, fun h => absurd h (by omega)⟩
  | .pair a b, k, h => by
    simp only [Schema.size] at h
    cases ha : a.size with
    | none => simp [ha] at h
    | some ka =>
      cases hb : b.size with
      | none => simp [ha, hb] at h
      | some kb =>
        simp only [ha, hb, Option.bind_eq_bind, Option.bind_some, Option.pure_def,
          Option.some.injEq] at h
        subst h
        intro bs
        have h1 := reads_size a ka ha bs
        have h2 := reads_size b kb hb (bs.drop ka)
        simp only [List.length_drop] at h2
        refine ⟨fun hk => ?_, fun hk => ?_⟩
        · obtain ⟨y, hy⟩ := h1.1 (by omega)
          obtain ⟨z, hz⟩ := h2.1 (by omega)
          refine ⟨(y, z), ?_⟩
          simp only [dec, hy, hz, List.drop_drop]
        · by_cases hka : bs.length < ka
          · simp only [dec, h1.2 hka]
          · obtain ⟨y, hy⟩ := h1.1 (by omega)
            simp only [dec, hy, h2.2 (by omega)]
  | .bool, k, h => by simp [Schema.size] at h
  | .seq _, k, h => by simp [Schema.size] at h

theorem reads_decN {α : Type} {f : List Byte → Option (α × List Byte)} {k : Nat} (hf : Reads f k) :
    ∀ n, Reads (decN f n) (n * k)
  | 0 => fun bs => ⟨fun _ => ⟨[], by simp [decN]⟩, fun h => absurd h (by omega)⟩
  | n + 1 => by
    intro bs
    have h1 := hf bs
    have h2 := reads_decN hf n (bs.drop k)
    simp only [List.length_drop] at h2
    have hm : (n + 1) * k = n * k + k := Nat.succ_mul n k
    refine ⟨fun hk => ?_, fun hk => ?_⟩
    · obtain ⟨y, hy⟩ := h1.1 (by omega)
      obtain ⟨z, hz⟩ := h2.1 (by omega)
      refine ⟨y :: z, ?_⟩
      simp only [decN, hy, hz, List.drop_drop, hm, Nat.add_comm]
    · by_cases hka : bs.length < k
      · simp only [decN, h1.2 hka]
      · obtain ⟨y, hy⟩ := h1.1 (by omega)
        simp only [decN, hy, h2.2 (by omega)]

theorem decN_length {α : Type} {f : List Byte → Option (α × List Byte)} :
    ∀ (n : Nat) (bs : List Byte) (l : List α) (r : List Byte), decN f n bs = some (l, r) → l.length = n
  | 0, bs, l, r, h => by
    simp only [decN, Option.some.injEq, Prod.mk.injEq] at h
    simp [← h.1]
  | n + 1, bs, l, r, h => by
    simp only [decN] at h
    cases h1 : f bs with
    | none => simp [h1] at h
    | some q =>
      obtain ⟨a, r1⟩ := q
      simp only [h1] at h
      cases h2 : decN f n r1 with
      | none => simp [h2] at h
      | some q =>
        obtain ⟨l', r2⟩ := q
        simp only [h2, Option.some.injEq, Prod.mk.injEq] at h
        rw [← h.1, List.length_cons, decN_length n _ _ _ h2]

theorem size_enc : ∀ (s : Schema) (k : Nat) (x : Val s), s.size = some k → (enc s x).length = k
  | .word n, k, x, h => by
    simp only [Schema.size, Option.some.injEq] at h
    simp only [enc, leBytes_length, h]
  | .unit, k, x, h => by
    simp only [Schema.size, Option.some.injEq] at h
    simp [enc, ← h]
  | .pair a b, k, x, h => by
    simp only [Schema.size] at h
    cases ha : a.size with
    | none => simp [ha] at h
    | some ka =>
      cases hb : b.size with
      | none => simp [ha, hb] at h
      | some kb =>
        simp only [ha, hb, Option.bind_eq_bind, Option.bind_some, Option.pure_def,
          Option.some.injEq] at h
        simp only [enc, List.length_append, size_enc a ka x.1 ha, size_enc b kb x.2 hb, h]
  | .bool, k, x, h => by simp [Schema.size] at h
  | .seq _, k, x, h => by simp [Schema.size] at h

/-- A shape which starts with a tensor of words of `b` bytes and has `t` more bytes. -/
inductive Headed : Schema → Nat → Nat → Prop
  | alone (b : Nat) : Headed (.seq (.word b)) b 0
  | more (b t : Nat) (r : Schema) (h : r.size = some t) : Headed (.pair (.seq (.word b)) r) b t

theorem Entity.headed : ∀ (e : Entity) (b t : Nat), e.layout = some (b, t) → Headed e.schema b t := by
  intro e b t h
  cases e <;> simp only [Entity.layout, Option.some.injEq, Prod.mk.injEq, reduceCtorEq] at h <;>
    obtain ⟨rfl, rfl⟩ := h <;> first | exact .alone _ | exact .more _ _ _ rfl

/-- The bytes of a tensor. -/
theorem tensor_enc (b : Nat) (l : List (BitVec (8 * b))) :
    enc (.seq (.word b)) l = leBytes 8 (words (.seq (.word b)) l).length ++
        (words (.seq (.word b)) l).flatMap (leBytes b) ∧
      ((words (.seq (.word b)) l).flatMap (leBytes b)).length =
        (words (.seq (.word b)) l).length * b := by
  have hw : words (.seq (.word b)) l = l.map BitVec.toNat := rfl
  have he : enc (.seq (.word b)) l =
      leBytes 8 l.length ++ l.flatMap (fun v => leBytes b v.toNat) := rfl
  rw [hw, he]
  refine ⟨by simp only [List.length_map, List.flatMap_map], ?_⟩
  induction l with
  | nil => simp
  | cons a l ih =>
    have ih' := ih rfl rfl
    simp only [List.map_cons, List.flatMap_cons, List.length_append, leBytes_length,
      List.length_cons, ih', Nat.succ_mul]
    omega

theorem words_length (b : Nat) (l : List (BitVec (8 * b))) :
    (words (.seq (.word b)) l).length = l.length := by
  have hw : words (.seq (.word b)) l = l.map BitVec.toNat := rfl
  rw [hw, List.length_map]

theorem words_flatMap (b : Nat) (l : List (BitVec (8 * b))) :
    (words (.seq (.word b)) l).flatMap (leBytes b) =
      l.flatMap (fun v => enc (.word b) v) := by
  have hw : words (.seq (.word b)) l = l.map BitVec.toNat := rfl
  rw [hw, List.flatMap_map]
  rfl

/-- The bytes of an entity which starts with a tensor. -/
theorem Headed.enc_eq {s : Schema} {b t : Nat} (h : Headed s b t) (x : Val s) :
    ∃ tl, enc s x = leBytes 8 (words s x).length ++
        ((words s x).flatMap (leBytes b) ++ tl) ∧ tl.length = t ∧
      ((words s x).flatMap (leBytes b)).length = (words s x).length * b := by
  cases h with
  | alone =>
    obtain ⟨h1, h2⟩ := tensor_enc b x
    exact ⟨[], by rw [List.append_nil]; exact h1, rfl, h2⟩
  | more _ _ r hr =>
    obtain ⟨h1, h2⟩ := tensor_enc b x.1
    have hw : words (.pair (.seq (.word b)) r) x = words (.seq (.word b)) x.1 := rfl
    have he : enc (.pair (.seq (.word b)) r) x = enc (.seq (.word b)) x.1 ++ enc r x.2 := rfl
    rw [hw, he, h1]
    exact ⟨enc r x.2, List.append_assoc _ _ _, size_enc r t x.2 hr, h2⟩

theorem dec_tensor (b n : Nat) (hn : n < 2 ^ 64) (rest : List Byte) :
    dec (.seq (.word b)) (leBytes 8 n ++ rest) = decN (dec (.word b)) n rest := by
  have h : dec (.seq (.word b)) (leBytes 8 n ++ rest) =
      match takeBytes 8 (leBytes 8 n ++ rest) with
      | none => none
      | some (x, r) => decN (dec (.word b)) (ofLe x) r := rfl
  rw [h, takeBytes_le]
  simp only [ofLe_leBytes 8 n hn]
  rfl

/-- Reading a shape which starts with a tensor from a length and the bytes after it. -/
theorem Headed.dec_iff {s : Schema} {b t : Nat} (h : Headed s b t) (n : Nat) (hn : n < 2 ^ 64)
    (rest : List Byte) :
    (n * b + t ≤ rest.length → ∃ y r, dec s (leBytes 8 n ++ rest) = some (y, r) ∧
        (words s y).length = n) ∧
      (rest.length < n * b + t → dec s (leBytes 8 n ++ rest) = none) := by
  have hd := dec_tensor b n hn rest
  have hr := reads_decN (reads_word b) n rest
  cases h with
  | alone =>
    refine ⟨fun hl => ?_, fun hl => ?_⟩
    · obtain ⟨y, hy⟩ := hr.1 (by omega)
      refine ⟨y, _, by rw [hd]; exact hy, ?_⟩
      exact (words_length b y).trans (decN_length _ _ _ _ hy)
    · rw [hd]
      exact hr.2 (by omega)
  | more _ _ r hs =>
    have h2 := reads_size r t hs (rest.drop (n * b))
    simp only [List.length_drop] at h2
    refine ⟨fun hl => ?_, fun hl => ?_⟩
    · obtain ⟨y, hy⟩ := hr.1 (by omega)
      obtain ⟨z, hz⟩ := h2.1 (by omega)
      refine ⟨(y, z), (rest.drop (n * b)).drop t, ?_, ?_⟩
      · rw [dec, hd, hy]
        simp only [hz]
      · exact (words_length b y).trans (decN_length _ _ _ _ hy)
    · by_cases hk : rest.length < n * b
      · rw [dec, hd, hr.2 hk]
      · obtain ⟨y, hy⟩ := hr.1 (by omega)
        rw [dec, hd, hy]
        simp only [h2.2 (by omega)]

theorem Headed.fits {s : Schema} {b t : Nat} (h : Headed s b t) (x : Val s) (hx : Fits s x) :
    (words s x).length < 2 ^ 64 := by
  cases h with
  | alone =>
    exact (words_length b x).trans_lt hx.1
  | more _ _ r hr =>
    exact (words_length b x.1).trans_lt hx.1.1

/-- The words read from the bytes of a tensor. -/
theorem Headed.dec_words {s : Schema} {b t : Nat} (h : Headed s b t) (l : List (BitVec (8 * b)))
    (hn : l.length < 2 ^ 64) (rest : List Byte) (y : Val s) (r : List Byte)
    (hd : dec s (leBytes 8 l.length ++ (l.flatMap (enc (.word b)) ++ rest)) = some (y, r)) :
    words s y = l.map BitVec.toNat := by
  have hk : decN (dec (.word b)) l.length (l.flatMap (enc (.word b)) ++ rest) = some (l, rest) :=
    decN_flatMap (f := dec (.word b)) (e := enc (.word b)) l rest
      (fun v _ c => dec_enc (.word b) v c trivial)
  have ht := dec_tensor b l.length hn (l.flatMap (enc (.word b)) ++ rest)
  rw [hk] at ht
  cases h with
  | alone =>
    rw [ht] at hd
    cases hd
    rfl
  | more _ _ r' hs =>
    rw [dec, ht] at hd
    simp only at hd
    cases h3 : dec r' rest with
    | none => simp [h3] at hd
    | some q =>
      simp only [h3] at hd
      cases hd
      rfl

/-- The words of an entity as the words of its tensor. -/
theorem Headed.words_eq {s : Schema} {b t : Nat} (h : Headed s b t) (x : Val s) :
    ∃ l : List (BitVec (8 * b)), words s x = l.map BitVec.toNat ∧
      (words s x).flatMap (leBytes b) = l.flatMap (enc (.word b)) := by
  cases h with
  | alone =>
    exact ⟨x, rfl, words_flatMap b x⟩
  | more _ _ r hr =>
    exact ⟨x.1, rfl, words_flatMap b x.1⟩

end Verif.Serde
