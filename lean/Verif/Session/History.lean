import Verif.Session.Props
import Verif.Random.Refine
import Verif.Aes.Props
/-
C59: what an engine publishes is its streams, read once; C61: the generators of engines made from a seed.
-/
namespace Verif.Session
open Verif.Random Verif.Engine
open Verif.Csprng (Build)
variable {w : Nat} (T : BitVec 128 → Nat → BitVec 8) (bld : Build)

theorem Engine.Ok.step {c : Call} {e e' : Engine} {o : Out} (ok : e.Ok) (h : step T bld c e = some (o, e')) :
    e'.Ok := by
  rcases step_cases h with ⟨x, rfl, rfl⟩ | ⟨w, s, rfl, g, hs, rfl⟩ | ⟨w, s, rfl, x, g, hs, rfl, rfl⟩ |
    ⟨w, s, rfl, x, g, hs, rfl, rfl⟩
  · exact ok
  · obtain ⟨l, _⟩ := local_secret s _ _ _ (secret_run_ok hs).2
    exact ⟨by have := l.within ok.secret; rwa [← l.bound] at this, ok.mask, ok.noise, ok.seeder⟩
  · obtain ⟨_, d, hd, _⟩ := enc_run_ok hs
    obtain ⟨l, _⟩ := localE_exec bld s _ _ _ hd
    exact ⟨ok.secret, by have := l.mask.within ok.mask; rwa [← l.mask.bound] at this,
      by have := l.noise.within ok.noise; rwa [← l.noise.bound] at this, ok.seeder⟩
  · obtain ⟨_, s1, g1, s2, b, q, h1, h2, _⟩ := seeded_run_ok hs
    have l := (local_seed _ _ _ h1).1.trans (local_seed _ _ _ h2).1
    exact ⟨ok.secret, ok.mask, ok.noise, by have := l.within ok.seeder; rwa [← l.bound] at this⟩

/-- C59, one call: the masks it outputs, one after another, are exactly the bytes it takes from the mask
generator. -/
theorem C59_masks_step (c : Call) (hf : c.Fits) (e e' : Engine) (ok : e.Ok) (o : Out)
    (h : step T bld c e = some (o, e')) :
    o.maskBytes = bytesBetween e.enc.mask.table e.enc.mask.pos e'.enc.mask.pos := by
  have z : ∀ p, bytesBetween e.enc.mask.table p p = [] := by intro p; simp [bytesBetween]
  rcases step_cases h with ⟨x, rfl, rfl⟩ | ⟨w, s, rfl, g, hs, rfl⟩ | ⟨w, s, rfl, x, g, hs, rfl, rfl⟩ |
    ⟨w, s, rfl, x, g, hs, rfl, rfl⟩
  · exact (z _).symm
  · rw [z]
    obtain ⟨_, hx⟩ := secret_run_ok hs
    cases s with
    | lweKey dim =>
      obtain ⟨r, _, e2⟩ := Option.map_eq_some_iff.1 hx
      simp only [Prod.mk.injEq] at e2
      rw [← e2.1]; rfl
    | glweKey dim N =>
      obtain ⟨r, _, e2⟩ := Option.map_eq_some_iff.1 hx
      simp only [Prod.mk.injEq] at e2
      rw [← e2.1]; rfl
    | publicEncrypt pk out msg =>
      simp only [SecretCall.exec] at hx
      split at hx
      · simp only [Option.some.injEq, Prod.mk.injEq] at hx
        rw [← hx.1]; rfl
      · cases hx
  · obtain ⟨hc, d, hd, rfl⟩ := enc_run_ok hs
    obtain ⟨_, count, hm⟩ := maskE_call bld s hf hc
    obtain ⟨_, h2, h3, _⟩ := hm _ _ _ hd ok.mask
    simp only [Out.maskBytes, Cts.maskBytes]
    rw [h2, streamWords_bytes, h3]
    rfl
  · exact (z _).symm

/-- C59, masks: over any history the masks of all the ciphertexts and keys output by the engine, concatenated in
the order of the calls, are the bytes of the mask generator from its initial to its final position: each byte is
output once, in order, and none is skipped. -/
theorem C59_masks : ∀ (cs : List Call) (_ : ∀ c ∈ cs, c.Fits) (e e' : Engine) (_ : e.Ok) (os : List Out),
    run T bld cs e = some (os, e') →
    os.flatMap Out.maskBytes = bytesBetween e.enc.mask.table e.enc.mask.pos e'.enc.mask.pos
  | [], _, e, e', _, os, h => by
    simp only [run, Option.some.injEq, Prod.mk.injEq] at h
    obtain ⟨rfl, rfl⟩ := h
    simp [bytesBetween]
  | c :: cs, hf, e, e', ok, os, h => by
    obtain ⟨o, e1, os', h1, h2, rfl⟩ := run_cons T bld h
    have a1 := C60_advance T bld c e e1 o h1
    have a2 := C60_run_advance T bld cs e1 e' os' h2
    rw [List.flatMap_cons, C59_masks_step T bld c (hf c (by simp)) e e1 ok o h1,
      C59_masks cs (fun c hc => hf c (by simp [hc])) e1 e' (ok.step T bld h1) os' h2,
      bytesBetween_append e.enc.mask.table e.enc.mask.pos e1.enc.mask.pos e'.enc.mask.pos a1.mask.2 a2.mask.2,
      a1.mask.1]

/-- C59, one seeded call: the compression seed is the next 16 bytes of the seeder, the noise of the bodies comes
from the generator of the 16 bytes after them, and the seeder moves past both. -/
theorem C59_seeded_step {w : Nat} (c : SeededCall w) (e e' : Engine) (ok : e.Ok) (s : Seeded w)
    (h : step T bld (.seeded c) e = some (.seeded s, e')) :
    s.compressionSeed = wordAt 128 e.seeder.table e.seeder.pos ∧
    e' = { e with seeder := e.seeder.skip 32 } ∧
    ∃ e2, c.exec { mask := newSrc T (wordAt 128 e.seeder.table e.seeder.pos),
                   noise := newSrc T (wordAt 128 e.seeder.table (e.seeder.pos + 16)) } = some (s.bodies, e2) := by
  simp only [step] at h
  cases hr : c.run T bld e.seeder with
  | err x => rw [hr] at h; simp at h
  | panic => rw [hr] at h; cases h
  | ok r =>
    obtain ⟨x, g⟩ := r
    rw [hr] at h
    simp only [Option.some.injEq, Prod.mk.injEq, Out.seeded.injEq, heq_eq_eq, true_and] at h
    obtain ⟨rfl, rfl⟩ := h
    obtain ⟨_, s1, g1, s2, b, q, h1, h2, h3, rfl⟩ := seeded_run_ok hr
    rw [seed_eq _ ok.seeder] at h1
    by_cases p1 : e.seeder.pos + 16 ≤ e.seeder.bound
    · rw [if_pos p1] at h1
      simp only [Option.some.injEq, Prod.mk.injEq] at h1
      obtain ⟨rfl, rfl⟩ := h1
      have hb : (e.seeder.skip 16).pos ≤ (e.seeder.skip 16).bound := p1
      rw [seed_eq _ hb] at h2
      by_cases p2 : (e.seeder.skip 16).pos + 16 ≤ (e.seeder.skip 16).bound
      · rw [if_pos p2] at h2
        simp only [Option.some.injEq, Prod.mk.injEq] at h2
        obtain ⟨rfl, rfl⟩ := h2
        exact ⟨rfl, by rw [skip_skip], q, h3⟩
      · rw [if_neg p2] at h2; cases h2
    · rw [if_neg p1] at h1; cases h1

/-- C59, seeds: over any history the compression seeds output by the engine are the words 0, 2, 4, … of its
seeder, each used once; the words 1, 3, 5, … seed the noise. -/
theorem C59_seeds : ∀ (cs : List Call) (e e' : Engine) (_ : e.Ok) (os : List Out),
    run T bld cs e = some (os, e') →
    os.filterMap Out.seed = (List.range (os.filterMap Out.seed).length).map
        (fun j => wordAt 128 e.seeder.table (e.seeder.pos + 32 * j)) ∧
    e'.seeder = e.seeder.skip (32 * (os.filterMap Out.seed).length)
  | [], e, e', _, os, h => by
    simp only [run, Option.some.injEq, Prod.mk.injEq] at h
    obtain ⟨rfl, rfl⟩ := h
    exact ⟨rfl, rfl⟩
  | c :: cs, e, e', ok, os, h => by
    obtain ⟨o, e1, os', h1, h2, rfl⟩ := run_cons T bld h
    obtain ⟨k1, k2⟩ := C59_seeds cs e1 e' (ok.step T bld h1) os' h2
    have keep : o.seed = none → e1.seeder = e.seeder →
        (o :: os').filterMap Out.seed = (List.range ((o :: os').filterMap Out.seed).length).map
          (fun j => wordAt 128 e.seeder.table (e.seeder.pos + 32 * j)) ∧
        e'.seeder = e.seeder.skip (32 * ((o :: os').filterMap Out.seed).length) := fun hn he => by
      rw [List.filterMap_cons_none hn]
      rw [he] at k1 k2
      exact And.intro k1 k2
    rcases step_cases h1 with ⟨x, rfl, rfl⟩ | ⟨w, s, rfl, g, hs, rfl⟩ | ⟨w, s, rfl, x, g, hs, rfl, rfl⟩ |
      ⟨w, s, rfl, x, g, hs, rfl, rfl⟩
    · exact keep rfl rfl
    · refine keep ?_ rfl
      obtain ⟨_, hx⟩ := secret_run_ok hs
      cases s with
      | lweKey dim =>
        obtain ⟨r, _, e2⟩ := Option.map_eq_some_iff.1 hx
        simp only [Prod.mk.injEq] at e2
        rw [← e2.1]; rfl
      | glweKey dim N =>
        obtain ⟨r, _, e2⟩ := Option.map_eq_some_iff.1 hx
        simp only [Prod.mk.injEq] at e2
        rw [← e2.1]; rfl
      | publicEncrypt pk out msg =>
        simp only [SecretCall.exec] at hx
        split at hx
        · simp only [Option.some.injEq, Prod.mk.injEq] at hx
          rw [← hx.1]; rfl
        · cases hx
    · exact keep rfl rfl
    · obtain ⟨j1, j2, _⟩ := C59_seeded_step T bld s e _ ok x h1
      have j3 : g = e.seeder.skip 32 := congrArg Engine.seeder j2
      subst j3
      rw [List.filterMap_cons_some (by rfl : (Out.seeded x).seed = some x.compressionSeed)]
      generalize hl : os'.filterMap Out.seed = l at k1 k2 ⊢
      refine ⟨?_, ?_⟩
      · rw [List.length_cons, Nat.add_comm l.length 1, List.range_add, List.map_append, List.map_map, j1]
        conv_lhs => rw [k1]
        simp only [List.range_one, List.map_cons, List.map_nil, List.cons_append, List.nil_append, Nat.mul_zero,
          Nat.add_zero]
        refine congrArg _ ?_
        apply List.map_congr_left
        intro i _
        simp only [Function.comp, Src.skip]
        rw [show e.seeder.pos + 32 + 32 * i = e.seeder.pos + 32 * (1 + i) by omega]
      · rw [k2, skip_skip, List.length_cons, show 32 + 32 * l.length = 32 * (l.length + 1) by omega]

/-- The low bit of a byte, as a word. -/
def lowBit (w : Nat) (b : BitVec 8) : BitVec w := BitVec.ofNat w (b.toNat % 2)

theorem rep_binary : ∀ n g r, rep n (uniformBinary w) g = some r →
    r.1 = (bytesBetween g.table g.pos (g.pos + n)).map (lowBit w) ∧ r.2 = g.skip n
  | 0, g, r, h => by
    simp only [rep, Option.some.injEq] at h
    subst h
    simp [bytesBetween, skip_zero]
  | n + 1, g, r, h => by
    simp only [rep] at h
    cases h1 : uniformBinary w g with
    | none => rw [h1] at h; cases h
    | some q =>
      simp only [h1] at h
      cases h2 : rep n (uniformBinary w) q.2 with
      | none => rw [h2] at h; cases h
      | some v =>
        simp only [h2, Option.some.injEq] at h
        subst h
        obtain ⟨k1, k2⟩ := rep_binary n q.2 v h2
        simp only [uniformBinary, Src.next] at h1
        by_cases hp : g.pos < g.bound
        · rw [if_pos hp] at h1
          simp only [Option.some.injEq] at h1
          subst h1
          constructor
          · rw [bytesBetween_append g.table g.pos (g.pos + 1) _ (by omega) (by omega), List.map_append, k1]
            have : (if g.table g.pos &&& 1#8 = 1#8 then 1#w else 0#w) = lowBit w (g.table g.pos) := by
              have hb : ∀ b : BitVec 8, (if b &&& 1#8 = 1#8 then 1 else 0) = b.toNat % 2 := by decide
              rw [lowBit, ← hb]
              split <;> rfl
            simp only [this, bytesBetween, Nat.add_sub_cancel_left, List.range_one, List.map_cons, List.map_nil,
              Nat.add_zero, List.cons_append, List.nil_append]
            rw [show g.pos + (n + 1) - (g.pos + 1) = g.pos + 1 + n - (g.pos + 1) by omega, Nat.add_sub_cancel_left]
          · rw [k2]
            simp only [Src.skip, Src.mk.injEq, true_and, and_true]
            omega
        · rw [if_neg hp] at h1; cases h1

/-- C59, LWE secret keys: the bits of a new key are the low bits of the next bytes of the secret generator, one
byte for each bit, and nothing else of the engine changes. -/
theorem C59_lwe_key {w : Nat} (dim : Nat) (e e' : Engine) (bits : List (BitVec w))
    (h : step T bld (.secret (w := w) (.lweKey dim)) e = some (.key bits, e')) :
    bits = (bytesBetween e.secret.table e.secret.pos (e.secret.pos + dim)).map (lowBit w) ∧
    e' = { e with secret := e.secret.skip dim } ∧ 0 < dim := by
  simp only [step] at h
  cases hr : (SecretCall.lweKey dim : SecretCall w).run e.secret with
  | err x => rw [hr] at h; simp at h
  | panic => rw [hr] at h; cases h
  | ok r =>
    rw [hr] at h
    simp only [Option.some.injEq, Prod.mk.injEq] at h
    obtain ⟨h1, rfl⟩ := h
    obtain ⟨hc, hx⟩ := secret_run_ok hr
    obtain ⟨v, e1, e2⟩ := Option.map_eq_some_iff.1 hx
    simp only [Prod.mk.injEq] at e2
    obtain ⟨k1, k2⟩ := rep_binary _ _ _ e1
    rw [h1] at e2
    simp only [Out.key.injEq, heq_eq_eq, true_and] at e2
    refine ⟨by rw [← e2.1, k1], by rw [← e2.2, k2], ?_⟩
    rcases Nat.eq_zero_or_pos dim with h0 | h0
    · subst h0
      simp only [SecretCall.check, Checks.lweSecretKeyGeneration, checks_bad] at hc
      exact absurd rfl (ite_ok hc).1
    · exact h0

/-- C59, GLWE secret keys. -/
theorem C59_glwe_key {w : Nat} (dim N : Nat) (e e' : Engine) (bits : List (BitVec w))
    (h : step T bld (.secret (w := w) (.glweKey dim N)) e = some (.key bits, e')) :
    bits = (bytesBetween e.secret.table e.secret.pos (e.secret.pos + N * dim)).map (lowBit w) ∧
    e' = { e with secret := e.secret.skip (N * dim) } := by
  simp only [step] at h
  cases hr : (SecretCall.glweKey dim N : SecretCall w).run e.secret with
  | err x => rw [hr] at h; simp at h
  | panic => rw [hr] at h; cases h
  | ok r =>
    rw [hr] at h
    simp only [Option.some.injEq, Prod.mk.injEq] at h
    obtain ⟨h1, rfl⟩ := h
    obtain ⟨hc, hx⟩ := secret_run_ok hr
    obtain ⟨v, e1, e2⟩ := Option.map_eq_some_iff.1 hx
    simp only [Prod.mk.injEq] at e2
    obtain ⟨k1, k2⟩ := rep_binary _ _ _ e1
    rw [h1] at e2
    simp only [Out.key.injEq, heq_eq_eq, true_and] at e2
    exact ⟨by rw [← e2.1, k1], by rw [← e2.2, k2]⟩

/-! ### Creation -/

theorem newSrc_ok (s : BitVec 128) : (newSrc T s).pos ≤ (newSrc T s).bound := by
  simp only [newSrc]; omega

/-- C61: a default engine is always created. Its secret, mask and noise generators are those of three seeds read
one after another from the generator of the root seed, which the seeder continues after them. -/
theorem C61_default (root : BitVec 128) : ∃ e, newDefault T root = some e ∧ e.Ok ∧
    e.secret = newSrc T (wordAt 128 (T root) 1) ∧
    e.enc.mask = newSrc T (wordAt 128 (T root) 17) ∧
    e.enc.noise = newSrc T (wordAt 128 (T root) 33) ∧
    e.seeder = { table := T root, pos := 49, bound := 2 ^ 132 - 1 } := by
  have s1 : seed (newSrc T root) = some (wordAt 128 (T root) 1, { table := T root, pos := 17, bound := 2 ^ 132 - 1 }) := by
    rw [seed_eq _ (newSrc_ok T root)]; rfl
  have s2 : seed { table := T root, pos := 17, bound := 2 ^ 132 - 1 } =
      some (wordAt 128 (T root) 17, { table := T root, pos := 33, bound := 2 ^ 132 - 1 }) := by
    rw [seed_eq _ (by norm_num)]; rfl
  have s3 : seed { table := T root, pos := 33, bound := 2 ^ 132 - 1 } =
      some (wordAt 128 (T root) 33, { table := T root, pos := 49, bound := 2 ^ 132 - 1 }) := by
    rw [seed_eq _ (by norm_num)]; rfl
  refine ⟨_, by simp only [newDefault, s1, s2, newEncGen, s3]; rfl,
    ⟨newSrc_ok T _, newSrc_ok T _, newSrc_ok T _, by norm_num⟩, rfl, rfl, rfl, rfl⟩

/-- C61: a parallel engine is always created. Its mask and noise generators are those of two seeds read one after
another from the generator of the root seed, which the seeder continues after them. -/
theorem C61_parallel (root : BitVec 128) : ∃ e, newParallel T root = some e ∧ e.Ok ∧
    e.enc.mask = newSrc T (wordAt 128 (T root) 1) ∧
    e.enc.noise = newSrc T (wordAt 128 (T root) 17) ∧
    e.seeder = { table := T root, pos := 33, bound := 2 ^ 132 - 1 } := by
  have s1 : seed (newSrc T root) = some (wordAt 128 (T root) 1, { table := T root, pos := 17, bound := 2 ^ 132 - 1 }) := by
    rw [seed_eq _ (newSrc_ok T root)]; rfl
  have s2 : seed { table := T root, pos := 17, bound := 2 ^ 132 - 1 } =
      some (wordAt 128 (T root) 17, { table := T root, pos := 33, bound := 2 ^ 132 - 1 }) := by
    rw [seed_eq _ (by norm_num)]; rfl
  refine ⟨_, by simp only [newParallel, s1, newEncGen, s2]; rfl,
    ⟨Nat.le_refl _, newSrc_ok T _, newSrc_ok T _, by norm_num⟩, rfl, rfl, rfl⟩

/-- The bytes of the default generator (module Aes): byte `p % 16` of the AES-128 encryption of `p / 16` under
the seed. -/
def aesTable (s : BitVec 128) : Nat → BitVec 8 := Csprng.tableByte (Aes.aesCipher s)

/-- C61: in the release build the generator `Gen.new` of a seed is refined to the source `newSrc`, so the
histories above are those of the engines with the AES generator. -/
theorem C61_generator (s : BitVec 128) :
    ∃ g, Csprng.Gen.new (α := BitVec 8) none none = some g ∧
      Refines .release (Aes.aesCipher s) g (newSrc aesTable s) := by
  obtain ⟨g, h1, h2⟩ := refines_create .release (Aes.aesCipher s) Csprng.TableIndex.SECOND Csprng.TableIndex.LAST
    (by decide) (by decide) (by decide) (by decide) (.inl rfl)
  exact ⟨g, h1, h2⟩

/-- C61, one engine: all the seeds it ever uses are different words of the stream of the root seed. The words at
positions 1, 17, 33 seed its secret, mask and noise generators, and over any history the `j`-th seeded entity has
the word at `49 + 32 j` as compression seed and the noise of the word at `65 + 32 j` (`C59_seeded_step`). Partial:
two engines made from the same root seed share these words (`C61_shared_stream`). -/
theorem C61_words_partial (root : BitVec 128) (e e' : Engine) (he : newDefault T root = some e) (cs : List Call)
    (os : List Out) (h : run T bld cs e = some (os, e')) :
    e.secret.table = T (wordAt 128 (T root) 1) ∧ e.enc.mask.table = T (wordAt 128 (T root) 17) ∧
    e.enc.noise.table = T (wordAt 128 (T root) 33) ∧
    os.filterMap Out.seed = (List.range (os.filterMap Out.seed).length).map
      (fun j => wordAt 128 (T root) (49 + 32 * j)) := by
  obtain ⟨e1, h1, ok, h2, h3, h4, h5⟩ := C61_default T root
  rw [he] at h1
  cases h1
  have k := (C59_seeds T bld cs e e' ok os h).1
  rw [h5] at k
  exact ⟨by rw [h2]; rfl, by rw [h3]; rfl, by rw [h4]; rfl, k⟩

/-- C61 is violated across engines: for every root seed, the public mask generator of the parallel engine is the
secret generator of the default engine. -/
theorem C61_shared_stream (root : BitVec 128) (e p : Engine) (he : newDefault T root = some e)
    (hp : newParallel T root = some p) : p.enc.mask = e.secret := by
  obtain ⟨e1, h1, _, h2, _⟩ := C61_default T root
  obtain ⟨p1, h3, _, h4, _⟩ := C61_parallel T root
  rw [he] at h1; rw [hp] at h3
  cases h1; cases h3
  rw [h2, h4]

/-- Consequence: whatever a parallel engine does first, the bytes of the masks it publishes give the bits of the
first secret key generated by a default engine made from the same root seed. -/
theorem C61_key_leak {w : Nat} (root : BitVec 128) (e p e' p' : Engine) (he : newDefault T root = some e)
    (hp : newParallel T root = some p) (dim : Nat) (bits : List (BitVec w))
    (hk : step T bld (.secret (w := w) (.lweKey dim)) e = some (.key bits, e'))
    (cs : List Call) (hf : ∀ c ∈ cs, c.Fits) (os : List Out) (hr : run T bld cs p = some (os, p'))
    (hlen : dim ≤ (os.flatMap Out.maskBytes).length) :
    bits = ((os.flatMap Out.maskBytes).take dim).map (lowBit w) := by
  have hs := C61_shared_stream T root e p he hp
  have okp : p.Ok := by
    obtain ⟨p1, h3, h4, _⟩ := C61_parallel T root
    rw [hp] at h3; cases h3; exact h4
  have hm := C59_masks T bld cs hf p p' okp os hr
  obtain ⟨hb, _⟩ := C59_lwe_key T bld dim e e' bits hk
  rw [hm] at hlen ⊢
  rw [hb, hs]
  simp only [bytesBetween, List.length_map, List.length_range, hs] at hlen ⊢
  rw [Nat.add_sub_cancel_left, ← List.map_take, List.take_range, Nat.min_eq_left hlen]

/-! ### A history -/

/-- A table of bytes. -/
def exTable (s : BitVec 128) (p : Nat) : BitVec 8 := BitVec.ofNat 8 (p * p * 5 / 3 + s.toNat % 251)

/-- A noise sampler that always accepts. -/
def exNoise : GaussianFn 32 := { accept := fun _ _ => true, value := fun u v => (u.setWidth 32 >>> 28, v.setWidth 32 >>> 28) }

/-- A key generation, an encryption with that key, a refused key generation, a seeded encryption, the encryption
of two messages and a keyswitching key. -/
def exCalls : List Call :=
  [.secret (w := 32) (.lweKey 3), .enc (w := 32) (.lwe exNoise [1, 0, 1] 5), .secret (w := 32) (.lweKey 0),
   .seeded (w := 32) (.lwe exNoise [1, 0, 1] 5), .enc (w := 32) (.lweVec exNoise [1, 1] [7, 8]),
   .enc (w := 32) (.ksk exNoise [1, 0] [1, 1] 2 3)]

example : ∀ c ∈ exCalls, c.Fits := by
  intro c hc
  simp only [exCalls, List.mem_cons, List.not_mem_nil, or_false] at hc
  rcases hc with rfl | rfl | rfl | rfl | rfl | rfl <;> trivial

/-- The hypotheses of the theorems above are met: the history succeeds, from an engine made from a seed, outputs 3,
then 2 * 2, then 2 * 2 * 2 mask words, and one seed. -/
example : ((newDefault exTable 9).bind (run exTable .debug exCalls)).map
    (fun r => (r.1.map fun o => o.maskBytes.length, (r.1.filterMap Out.seed).length, r.2.enc.mask.pos, r.2.seeder.pos,
      r.2.secret.pos)) =
    some ([0, 12, 0, 0, 16, 32], 1, 61, 81, 4) := by decide +kernel

/-- The leak of C61 on this history. -/
example : ((newParallel exTable 9).bind (run exTable .debug [.enc (w := 32) (.lwe exNoise [1, 0, 1] 5)])).map
      (fun r => ((r.1.flatMap Out.maskBytes).take 3).map (lowBit 32)) =
    ((newDefault exTable 9).bind (run exTable .debug [.secret (w := 32) (.lweKey 3)])).map
      (fun r => r.1.flatMap fun o => match o with | .key (w := 32) b => b | _ => []) := by decide +kernel

end Verif.Session
