import Verif.Session.SeededGgsw
import Verif.Session.History
import Verif.Glwe.Props3
/-
C119: seeded GGSW ciphertexts, through their compression seed alone.

Vocabulary: `GgswEnc`, `KeyFits`, `ggswRow`, `glwePhase` (Verif.Glwe.Spec). A seeded ciphertext is its compression
seed and its bodies; `T s` is the table of bytes of the generator of seed `s`.
-/
set_option linter.unusedSectionVars false
namespace Verif.Session
open Verif.Random Verif.Poly Verif.Glwe

variable {w : Nat}

theorem fromSeed_inv {T : BitVec 128 → Nat → BitVec 8} {f : GaussianFn w} {key : List (BitVec w)} {N k b : Nat}
    {s : BitVec 128} {out bodies : List (BitVec w)} {msg : BitVec w} {seeder seeder' : Src}
    (h : encryptGgswFromSeed T f key N k b s out msg seeder = some (bodies, seeder')) :
    ∃ s' g', seed seeder = some (s', seeder') ∧
      encryptSeededGgsw f key N k b out msg { mask := newSrc T s, noise := newSrc T s' } = some (bodies, g') := by
  rw [encryptGgswFromSeed, newEncGen] at h
  cases hs : seed seeder with
  | none => rw [hs] at h; cases h
  | some r =>
    obtain ⟨s', sd⟩ := r
    rw [hs] at h
    simp only at h
    obtain ⟨⟨bs, g'⟩, h1, h2⟩ := Option.map_eq_some_iff.1 h
    simp only [Prod.mk.injEq] at h2
    obtain ⟨rfl, rfl⟩ := h2
    exact ⟨s', g', rfl, h1⟩

/-- C119: whoever has the compression seed and the bodies gets a GGSW encryption of the message under the key, whatever the
output of the expansion held; the errors are the words drawn from the noise generator, row after row. It is word for
word the ciphertext that the unseeded encryption makes with the same two seeds. -/
theorem C119_expand (T : BitVec 128 → Nat → BitVec 8) (f : GaussianFn w) (N k b level : Nat) (hN : 0 < N)
    (key out bodies : List (BitVec w)) (msg : BitVec w) (s : BitVec 128) (seeder seeder' : Src) (hk : KeyFits N k key)
    (ho : out.length = level * ((k + 1) * N))
    (h : encryptGgswFromSeed T f key N k b s out msg seeder = some (bodies, seeder')) :
    ∃ (s' : BitVec 128) (ct : List (BitVec w)) (e : Nat → Nat → List (BitVec w)),
      seed seeder = some (s', seeder') ∧
      (∀ out', out'.length = level * ((k + 1) * ((k + 1) * N)) → expandGgswFromSeed T N k s out' bodies = some ct) ∧
      (∀ std, std.length = level * ((k + 1) * ((k + 1) * N)) →
        (encryptGgsw f key N k b std msg { mask := newSrc T s, noise := newSrc T s' }).map (·.1) = some ct) ∧
      GgswEnc N k b level key ct (AdjoinRoot.of _ msg) (fun j r => toRq N (e j r)) ∧
      ∀ j r, j < level → r ≤ k → (e j r).length = N ∧ ∃ gn,
        randomNoiseTensor f N { table := T s', pos := 1 + (j * (k + 1) + r) * (N * 256),
                                bound := 1 + (j * (k + 1) + r + 1) * (N * 256) } = some (e j r, gn) := by
  obtain ⟨s', g', h1, h2⟩ := fromSeed_inv h
  have key17 := fun std (hstd : std.length = level * ((k + 1) * ((k + 1) * N))) =>
    (C17_ggsw f N k b level hN key std out msg _ hk hstd ho).1 bodies g' h2
  obtain ⟨ct, c1, c2⟩ := key17 (List.replicate (level * ((k + 1) * ((k + 1) * N))) 0) (by simp)
  obtain ⟨e, e1, e2, -⟩ := C26_encrypt f N k b level hN key _ ct msg _ g' hk (by simp) c2
  refine ⟨s', ct, e, h1, ?_, ?_, e2, fun j r hj hr => e1 j r hj hr⟩
  · intro out' ho'
    rw [expandGgswFromSeed, c1 out' ho']
    rfl
  · intro std hstd
    obtain ⟨ct', d1, d2⟩ := key17 std hstd
    have := c1 std hstd
    rw [d1 std hstd] at this
    simp only [Option.some.injEq, Prod.mk.injEq] at this
    rw [d2, this.1]
    rfl

/-- C119: in parallel, with any schedule of the levels and of the rows, the outcome is that of the sequential call: same
bodies, same state of the seeder, same panics. -/
theorem C119_parallel (T : BitVec 128 → Nat → BitVec 8) (f : GaussianFn w) (N k b level : Nat) (hN : 0 < N)
    (key out : List (BitVec w)) (msg : BitVec w) (s : BitVec 128) (seeder : Src) (sched : List Nat)
    (rowSched : Nat → List Nat) (hp : sched.Perm (List.range level)) (hr : ∀ j, (rowSched j).Perm (List.range (k + 1)))
    (ho : out.length = level * ((k + 1) * N)) :
    parEncryptGgswFromSeed T f key N k b sched rowSched s out msg seeder =
      encryptGgswFromSeed T f key N k b s out msg seeder := by
  rw [parEncryptGgswFromSeed, encryptGgswFromSeed]
  split
  · rfl
  · rw [(C18_ggsw_par_eq_seq f key N k b level hN sched rowSched hp hr out msg _).2 ho]

theorem expand_rows {T : BitVec 128 → Nat → BitVec 8} {N k level : Nat} (hN : 0 < N) {s : BitVec 128}
    {out bodies ct : List (BitVec w)} (ho : out.length = level * ((k + 1) * ((k + 1) * N)))
    (hb : bodies.length = level * ((k + 1) * N)) (h : expandGgswFromSeed T N k s out bodies = some ct) :
    ct.length = level * ((k + 1) * ((k + 1) * N)) ∧ ∀ j r, j < level → r ≤ k →
      ggswRow N k ct j r = maskWords w (newSrc T s) (1 + (j * (k + 1) + r) * mB w k N) (k * N) ++
        block N bodies (j * (k + 1) + r) := by
  obtain ⟨⟨res, g'⟩, h1, rfl⟩ := Option.map_eq_some_iff.1 h
  rw [expandGgsw_eq_list N k level hN out bodies _ ho hb, expandList_iff N k (level * (k + 1)) hN out bodies _ _
    (by rw [ho, Nat.mul_assoc]) (by rw [hb, Nat.mul_assoc]) (by simp only [newSrc]; norm_num)] at h1
  obtain ⟨-, -, h3, h4⟩ := h1
  refine ⟨by rw [h3, Nat.mul_assoc], fun j r hj hr => ?_⟩
  rw [ggswRow, block_block _ _ _ _ _ (by omega)]
  exact h4 _ (row_index hj (by omega))

/-- C119: the masks come from the compression seed only, each row from its own bytes. So two ciphertexts with the same
compression seed have the same masks, and the phases of corresponding rows differ, under every key, by
the difference of the bodies: anyone sees it without a key. -/
theorem C119_same_seed (T : BitVec 128 → Nat → BitVec 8) (N k level : Nat) (hN : 0 < N) (s : BitVec 128)
    (out out' bodies bodies' ct ct' : List (BitVec w)) (ho : out.length = level * ((k + 1) * ((k + 1) * N)))
    (ho' : out'.length = level * ((k + 1) * ((k + 1) * N))) (hb : bodies.length = level * ((k + 1) * N))
    (hb' : bodies'.length = level * ((k + 1) * N)) (h : expandGgswFromSeed T N k s out bodies = some ct)
    (h' : expandGgswFromSeed T N k s out' bodies' = some ct') (j r : Nat) (hj : j < level) (hr : r ≤ k) :
    (ggswRow N k ct j r).take (k * N) = (ggswRow N k ct' j r).take (k * N) ∧
    ∀ key : List (BitVec w), glwePhase N k key (ggswRow N k ct j r) - glwePhase N k key (ggswRow N k ct' j r) =
      toRq N (block N bodies (j * (k + 1) + r)) - toRq N (block N bodies' (j * (k + 1) + r)) := by
  have h1 := (expand_rows hN ho hb h).2 j r hj hr
  have h2 := (expand_rows hN ho' hb' h').2 j r hj hr
  have hl : (maskWords w (newSrc T s) (1 + (j * (k + 1) + r) * mB w k N) (k * N)).length = k * N := by
    rw [maskWords, List.length_map, List.length_range]
  rw [h1, h2]
  generalize maskWords w (newSrc T s) (1 + (j * (k + 1) + r) * mB w k N) (k * N) = m at hl
  have hblk : ∀ bs : List (BitVec w), bs.length = level * ((k + 1) * N) →
      block N (m ++ block N bs (j * (k + 1) + r)) k = block N bs (j * (k + 1) + r) ∧
      ∀ i, i < k → block N (m ++ block N bs (j * (k + 1) + r)) i = block N m i := by
    intro bs hbs
    have hbl : (block N bs (j * (k + 1) + r)).length = N :=
      block_length _ _ _ (by rw [hbs, ← Nat.mul_assoc]; exact Nat.mul_le_mul_right _ (row_index hj (by omega)))
    constructor
    · conv_lhs => rw [block]
      rw [List.drop_left' hl, List.take_of_length_le hbl.le]
    · intro i hi
      have : (i + 1) * N ≤ k * N := Nat.mul_le_mul_right N hi
      rw [Nat.add_mul, Nat.one_mul] at this
      rw [block, block, List.drop_append_of_le_length (by omega), List.take_append_of_le_length
        (by rw [List.length_drop]; omega), block]
  refine ⟨by rw [List.take_left' hl, List.take_left' hl], fun key => ?_⟩
  obtain ⟨a1, a2⟩ := hblk bodies hb
  obtain ⟨b1, b2⟩ := hblk bodies' hb'
  have hs := Finset.sum_congr (rfl : Finset.range k = Finset.range k) fun i hi => congrArg
    (fun x => toRq N x * toRq N (block N key i))
    ((a2 i (Finset.mem_range.1 hi)).trans (b2 i (Finset.mem_range.1 hi)).symm)
  rw [glwePhase, glwePhase, a1, b1, hs]
  ring

/-- C119, a GLWE ciphertext: whoever has the compression seed and the body gets the ciphertext the unseeded encryption
makes from that seed. -/
theorem C119_glwe (T : BitVec 128 → Nat → BitVec 8) (f : GaussianFn w) (N k : Nat) (key msg body : List (BitVec w))
    (s : BitVec 128) (noise : Src) (g' : EncGen) (hk : KeyFits N k key)
    (h : encryptSeededGlwe f key N msg { mask := newSrc T s, noise := noise } = some (body, g')) :
    ∃ ct, (∀ out, CtFits N k out → expandGlweFromSeed T N s out body = some ct) ∧
      ∀ out, CtFits N k out → encryptGlwe f key N out msg { mask := newSrc T s, noise := noise } = some (ct, g') := by
  have hf : ∀ out : List (BitVec w), CtFits N k out → out.length - N = key.length := by
    intro out ho
    rw [ho, hk, Nat.add_mul, Nat.one_mul]
    omega
  have h0 : CtFits N k (List.replicate ((k + 1) * N) (0 : BitVec w)) := List.length_replicate
  obtain ⟨mask, m1, m2⟩ := (C17_glwe f N k key _ msg _ hk h0).1 body g' h
  refine ⟨mask ++ body, fun out ho => ?_, fun out ho => ?_⟩
  · rw [expandGlwe, hf _ h0, ← hf out ho, ← expandGlwe] at m1
    rw [expandGlweFromSeed, m1]
    rfl
  · rw [encryptGlwe, hf _ h0, ← hf out ho, ← encryptGlwe] at m2
    exact m2

/-- The hypotheses are met: two levels, polynomials of size 2, a seeder that answers; the call succeeds, in every order, and
so does the expansion, on two outputs with different contents. -/
example :
    (encryptGgswFromSeed exTable exNoise [1, 0] 2 1 3 7 (List.replicate 8 0) 5 (newSrc exTable 9)).map (fun r =>
      (r.1.length, r.2.pos, expandGgswFromSeed exTable 2 1 7 (List.replicate 16 0) r.1 ==
        expandGgswFromSeed exTable 2 1 7 (List.replicate 16 3) r.1,
        (expandGgswFromSeed exTable 2 1 7 (List.replicate 16 0) r.1).isSome)) = some (8, 17, true, true) ∧
    parEncryptGgswFromSeed exTable exNoise [1, 0] 2 1 3 [1, 0] (fun _ => [1, 0]) 7 (List.replicate 8 0) 5
      (newSrc exTable 9) =
    encryptGgswFromSeed exTable exNoise [1, 0] 2 1 3 7 (List.replicate 8 0) 5 (newSrc exTable 9) := by
  refine ⟨by decide +kernel, C119_parallel _ _ 2 1 3 2 (by decide) _ _ _ _ _ _ _ (by decide)
    (fun _ => by decide) rfl⟩

/-- A seeder with fewer bytes than a seed: the call panics. -/
example : encryptGgswFromSeed exTable exNoise [1, 0] 2 1 3 7 (List.replicate 8 0) 5
    { newSrc exTable 9 with bound := 10 } = none := by decide +kernel

end Verif.Session
