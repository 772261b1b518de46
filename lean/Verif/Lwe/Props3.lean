import Verif.Random.Fork
import Verif.Lwe.Lemmas2
import Verif.Random.Props
/-
Properties C17, C18 and C19 for LWE ciphertexts: seeded forms, parallel list encryption, mask budgets.
-/
set_option linter.unusedSectionVars false
namespace Verif.Lwe
open Verif.Random

variable {w : Nat}

/-! ### C17 -/

/-- C17, one ciphertext: encrypting in seeded form and expanding with a mask generator in the same
state gives exactly the result of the standard encryption (same words, same panics, same final state of
both generators). -/
theorem C17_lwe (f : GaussianFn w) (key out : List (BitVec w)) (msg : BitVec w) (g : EncGen)
    (ho : Fits key out) :
    encryptLwe f key out msg g =
      (encryptSeededLwe f key msg g).bind fun r =>
        (expandLwe out r.1 g.mask).map fun x => (x.1, { mask := x.2, noise := r.2.noise }) := by
  have h1 : out.length ≠ 0 := by rw [ho]; omega
  have h2 : out.length - 1 = key.length := by rw [ho]; rfl
  simp only [encryptLwe, if_neg h1, h2, encryptSeededLwe, expandLwe, fillMaskAndBody]
  cases h3 : rep key.length (uniform w) g.mask with
  | none => rfl
  | some r =>
    obtain ⟨mask, gm⟩ := r
    cases h4 : randomNoise f g.noise with
    | none => rfl
    | some q => rfl

/-- In the seeded form the mask generator advances exactly as in the expansion. -/
theorem C17_lwe_mask_state (f : GaussianFn w) (key out : List (BitVec w)) (msg b : BitVec w)
    (g g' : EncGen) (ho : Fits key out) (h : encryptSeededLwe f key msg g = some (b, g')) :
    ∃ mask, expandLwe out b g.mask = some (mask ++ [b], g'.mask) ∧
      encryptLwe f key out msg g = some (mask ++ [b], g') := by
  have h1 : out.length ≠ 0 := by rw [ho]; omega
  have h2 : out.length - 1 = key.length := by rw [ho]; rfl
  have hl := C17_lwe f key out msg g ho
  simp only [encryptSeededLwe, fillMaskAndBody] at h
  cases h3 : rep key.length (uniform w) g.mask with
  | none => rw [h3] at h; cases h
  | some r =>
    obtain ⟨mask, gm⟩ := r
    cases h4 : randomNoise f g.noise with
    | none => rw [h3, h4] at h; cases h
    | some q =>
      obtain ⟨e, gn⟩ := q
      simp only [h3, h4, Option.some.injEq, Prod.mk.injEq] at h
      obtain ⟨rfl, rfl⟩ := h
      refine ⟨mask, ?_, ?_⟩
      · simp only [expandLwe, if_neg h1, h2, h3]
      · simp only [encryptLwe, if_neg h1, h2, fillMaskAndBody, h3, h4]

/-- If seeded encryption panics, so does standard encryption. -/
theorem C17_lwe_none (f : GaussianFn w) (key out : List (BitVec w)) (msg : BitVec w) (g : EncGen)
    (ho : Fits key out) (h : encryptSeededLwe f key msg g = none) :
    encryptLwe f key out msg g = none := by
  rw [C17_lwe f key out msg g ho, h]; rfl

theorem seededListAux (f : GaussianFn w) (key : List (BitVec w)) :
    ∀ (cs : List (List (BitVec w))) (bs ms : List (BitVec w)) (g : EncGen),
    (∀ c ∈ cs, Fits key c) → cs.length = bs.length → bs.length = ms.length →
    (∀ bs' g', encryptSeededLweList f key bs ms g = some (bs', g') →
      bs'.length = bs.length ∧
      ∃ cts, expandLweListAux cs bs' g.mask = some (cts, g'.mask) ∧
        encryptLweListAux f key cs ms g = some (cts, g') ∧ cts.length = bs.length ∧
        ∀ c ∈ cts, Fits key c) ∧
    (encryptSeededLweList f key bs ms g = none → encryptLweListAux f key cs ms g = none)
  | [], [], [], g, _, _, _ => by
    constructor
    · intro bs' g' h
      simp only [encryptSeededLweList, Option.some.injEq, Prod.mk.injEq] at h
      obtain ⟨rfl, rfl⟩ := h
      exact ⟨rfl, [], rfl, rfl, rfl, by simp⟩
    · intro h; cases h
  | c :: cs, b :: bs, m :: ms, g, hc, h1, h2 => by
    have hfc := hc c (by simp)
    simp only [encryptSeededLweList, encryptLweListAux]
    cases h3 : encryptSeededLwe f key m g with
    | none =>
      rw [C17_lwe_none f key c m g hfc h3]
      exact ⟨(fun _ _ h => by cases h), fun _ => rfl⟩
    | some r =>
      obtain ⟨b', g1⟩ := r
      obtain ⟨mask, e1, e2⟩ := C17_lwe_mask_state f key c m b' g g1 hfc h3
      obtain ⟨ih1, ih2⟩ := seededListAux f key cs bs ms g1 (fun x hx => hc x (by simp [hx]))
        (by simpa using h1) (by simpa using h2)
      rw [e2]
      simp only
      cases h4 : encryptSeededLweList f key bs ms g1 with
      | none =>
        rw [ih2 h4]
        exact ⟨(fun _ _ h => by cases h), fun _ => rfl⟩
      | some r =>
        obtain ⟨bs2, g2⟩ := r
        obtain ⟨hl, cts, e3, e4, e5, e6⟩ := ih1 bs2 g2 h4
        rw [e4]
        constructor
        · intro bs' g' h
          simp only [Option.some.injEq, Prod.mk.injEq] at h
          obtain ⟨rfl, rfl⟩ := h
          refine ⟨by simp [hl], (mask ++ [b']) :: cts, ?_, rfl, by simp [e5], ?_⟩
          · simp only [expandLweListAux, e1, e3]
          · intro x hx
            rcases List.mem_cons.1 hx with rfl | hx
            · obtain ⟨_, _, hf, _⟩ := encryptLwe_phase hfc e2
              exact hf
            · exact e6 x hx
        · intro h; cases h

theorem chunks_fits (key out : List (BitVec w)) (n : Nat) (h : out.length = n * (key.length + 1)) :
    ∀ c ∈ chunks (key.length + 1) out, Fits key c := by
  rw [chunks_eq _ (by omega) _ _ h]
  intro c hc
  obtain ⟨i, hi, rfl⟩ := List.mem_map.1 hc
  apply block_length
  rw [h]
  exact Nat.mul_le_mul_right _ (List.mem_range.1 hi)

/-- C17, lists: the seeded list encryption of `n` messages expands, from a mask generator in the same
state, to exactly the standard list encryption, for every list length; and both mask generators end in
the same state. -/
theorem C17_lwe_list (f : GaussianFn w) (key out bodies msgs : List (BitVec w)) (g : EncGen)
    (ho : out.length = msgs.length * (key.length + 1)) (hb : bodies.length = msgs.length) :
    (∀ bs g', encryptSeededLweList f key bodies msgs g = some (bs, g') →
      bs.length = msgs.length ∧
      ∃ cts, expandLweList (key.length + 1) out bs g.mask = some (cts, g'.mask) ∧
        encryptLweList f key (key.length + 1) out msgs g = some (cts, g')) ∧
    (encryptSeededLweList f key bodies msgs g = none →
      encryptLweList f key (key.length + 1) out msgs g = none) := by
  obtain ⟨h1, h2⟩ := seededListAux f key (chunks (key.length + 1) out) bodies msgs g
    (chunks_fits key out _ ho) (by rw [chunks_length _ (by omega) _ _ ho, hb]) hb
  constructor
  · intro bs g' h
    obtain ⟨hl, cts, e1, e2, _, _⟩ := h1 bs g' h
    exact ⟨by rw [hl, hb], cts.flatten, by simp only [expandLweList, e1],
      by simp only [encryptLweList, e2]⟩
  · intro h
    simp only [encryptLweList, h2 h]

theorem seededKskAux (f : GaussianFn w) (key : List (BitVec w)) (b l : Nat) :
    ∀ (bits : List (BitVec w)) (os bls : List (List (BitVec w))) (g : EncGen),
    (∀ o ∈ os, o.length = l * (key.length + 1)) → (∀ x ∈ bls, x.length = l) →
    os.length = bits.length → bls.length = bits.length →
    (∀ bls' g', fillSeededKeyswitchKeyAux f key b l bits bls g = some (bls', g') →
      (∀ x ∈ bls', x.length = l) ∧
      ∃ os', expandKeyswitchKeyAux (key.length + 1) os bls' g.mask = some (os', g'.mask) ∧
        fillKeyswitchKeyAux f key b l (key.length + 1) bits os g = some (os', g')) ∧
    (fillSeededKeyswitchKeyAux f key b l bits bls g = none →
      fillKeyswitchKeyAux f key b l (key.length + 1) bits os g = none)
  | [], [], [], g, _, _, _, _ => by
    constructor
    · intro bs' g' h
      simp only [fillSeededKeyswitchKeyAux, Option.some.injEq, Prod.mk.injEq] at h
      obtain ⟨rfl, rfl⟩ := h
      exact ⟨by simp, [], rfl, rfl⟩
    · intro h; cases h
  | bit :: bits, o :: os, bl :: bls, g, ho, hb, h1, h2 => by
    simp only [fillSeededKeyswitchKeyAux, fillKeyswitchKeyAux]
    obtain ⟨k1, k2⟩ := C17_lwe_list f key o bl (kskMessages b l bit) g
      (by rw [kskMessages_length]; exact ho o (by simp))
      (by rw [kskMessages_length]; exact hb bl (by simp))
    cases h3 : encryptSeededLweList f key bl (kskMessages b l bit) g with
    | none =>
      rw [k2 h3]
      exact ⟨(fun _ _ h => by cases h), fun _ => rfl⟩
    | some r =>
      obtain ⟨bl', g1⟩ := r
      obtain ⟨hl, cts, e1, e2⟩ := k1 bl' g1 h3
      rw [kskMessages_length] at hl
      obtain ⟨ih1, ih2⟩ := seededKskAux f key b l bits os bls g1 (fun x hx => ho x (by simp [hx]))
        (fun x hx => hb x (by simp [hx])) (by simpa using h1) (by simpa using h2)
      rw [e2]
      simp only
      cases h4 : fillSeededKeyswitchKeyAux f key b l bits bls g1 with
      | none =>
        rw [ih2 h4]
        exact ⟨(fun _ _ h => by cases h), fun _ => rfl⟩
      | some r =>
        obtain ⟨bls2, g2⟩ := r
        obtain ⟨hl2, os', e3, e4⟩ := ih1 bls2 g2 h4
        rw [e4]
        constructor
        · intro bs' g' h
          simp only [Option.some.injEq, Prod.mk.injEq] at h
          obtain ⟨rfl, rfl⟩ := h
          refine ⟨?_, cts :: os', ?_, rfl⟩
          · intro x hx
            rcases List.mem_cons.1 hx with rfl | hx
            · exact hl
            · exact hl2 x hx
          · simp only [expandKeyswitchKeyAux, e1, e3]
        · intro h; cases h

/-- C17, keyswitching keys: the seeded generation expands to exactly the standard generation. -/
theorem C17_keyswitch_key (f : GaussianFn w) (s s' out bodies : List (BitVec w)) (b l : Nat)
    (hl : 0 < l) (g : EncGen) (ho : out.length = s.length * (l * (s'.length + 1)))
    (hb : bodies.length = s.length * l) :
    (∀ bs g', fillSeededKeyswitchKey f s s' b l bodies g = some (bs, g') →
      ∃ ksk, expandKeyswitchKey l (s'.length + 1) out bs g.mask = some (ksk, g'.mask) ∧
        fillKeyswitchKey f s s' b l (s'.length + 1) out g = some (ksk, g')) ∧
    (fillSeededKeyswitchKey f s s' b l bodies g = none →
      fillKeyswitchKey f s s' b l (s'.length + 1) out g = none) := by
  have hpos : 0 < l * (s'.length + 1) := Nat.mul_pos hl (by omega)
  have hu : ∀ (n m : Nat) (xs : List (BitVec w)), 0 < n → xs.length = m * n →
      ∀ x ∈ chunks n xs, x.length = n := by
    intro n m xs hn hx x hm
    rw [chunks_eq _ hn _ _ hx] at hm
    obtain ⟨i, hi, rfl⟩ := List.mem_map.1 hm
    apply block_length
    rw [hx]
    exact Nat.mul_le_mul_right _ (List.mem_range.1 hi)
  obtain ⟨h1, h2⟩ := seededKskAux f s' b l s (chunks (l * (s'.length + 1)) out) (chunks l bodies) g
    (hu _ _ _ hpos ho) (hu _ _ _ hl hb) (chunks_length _ hpos _ _ ho) (chunks_length _ hl _ _ hb)
  constructor
  · intro bs g' h
    simp only [fillSeededKeyswitchKey] at h
    split at h
    · cases h
    · rename_i blks g1 e
      simp only [Option.some.injEq, Prod.mk.injEq] at h
      obtain ⟨rfl, rfl⟩ := h
      obtain ⟨hl', os', e1, e2⟩ := h1 _ _ e
      refine ⟨os'.flatten, ?_, by simp only [fillKeyswitchKey, e2]⟩
      simp only [expandKeyswitchKey, chunks_of_flatten _ hl _ hl', e1]
  · intro h
    simp only [fillSeededKeyswitchKey] at h
    split at h
    · rename_i e
      simp only [fillKeyswitchKey, h2 e]
    · cases h

/-- C17 on a concrete stream: a seeded list of two messages and its expansion. -/
example :
    let f : GaussianFn 16 := { accept := fun _ _ => true, value := fun u _ => (u.setWidth 16 &&& 3#16, 0#16) }
    let g : EncGen := { mask := ⟨fun p => BitVec.ofNat 8 (p * p), 1, 1000⟩, noise := ⟨fun p => BitVec.ofNat 8 p, 1, 1000⟩ }
    (encryptSeededLweList f [1#16, 0#16] [0#16, 0#16] [100#16, 200#16] g).map (·.1) =
      some [1126#16, 9442#16] ∧
    ((encryptLweList f [1#16, 0#16] 3 (List.replicate 6 0#16) [100#16, 200#16] g).map (·.1)) =
      ((encryptSeededLweList f [1#16, 0#16] [0#16, 0#16] [100#16, 200#16] g).bind fun r =>
        (expandLweList 3 (List.replicate 6 0#16) r.1 g.mask).map (·.1)) := by
  decide +kernel

/-! ### C18 -/

/-- C18: the outcome of parallel list encryption (ciphertexts, final generator state, panic) is the
same for every schedule of the workers. -/
theorem C18_lwe_list_schedule (f : GaussianFn w) (key out msgs : List (BitVec w)) (L : Nat) (g : EncGen)
    (sched sched' : List Nat) (hs : sched.Nodup) (hp : sched.Perm sched') :
    parEncryptLweList f key L out msgs g sched = parEncryptLweList f key L out msgs g sched' := by
  simp only [parEncryptLweList]
  split
  · rfl
  · rw [parFor_perm _ sched sched' hs hp]

/-- C18: after a parallel list encryption, ciphertext `i` is exactly the encryption of message `i` with
the generator whose mask stream starts at byte `i · n · w/8` and whose noise stream starts at byte
`i · 768` of the parent; it decrypts to message `i` plus a noise value drawn from that stream. -/
theorem C18_lwe_list_elements (f : GaussianFn w) (key out msgs cts : List (BitVec w)) (g g' : EncGen)
    (ho : out.length = msgs.length * (key.length + 1)) (sched : List Nat)
    (hp : sched.Perm (List.range msgs.length))
    (h : parEncryptLweList f key (key.length + 1) out msgs g sched = some (cts, g')) :
    cts.length = msgs.length * (key.length + 1) ∧
    g'.mask = g.mask.skip (msgs.length * (key.length * (w / 8))) ∧
    g'.noise = g.noise.skip (msgs.length * 768) ∧
    ∀ i, i < msgs.length → ∃ (gi gi' : EncGen) (e : BitVec w),
      gi.mask = { g.mask.skip (i * (key.length * (w / 8))) with
        bound := g.mask.pos + (i + 1) * (key.length * (w / 8)) } ∧
      gi.noise = { g.noise.skip (i * 768) with bound := g.noise.pos + (i + 1) * 768 } ∧
      encryptLwe f key (block (key.length + 1) out i) (msgs.getD i 0) gi =
        some (block (key.length + 1) cts i, gi') ∧
      randomNoise f gi.noise = some (e, gi'.noise) ∧
      decryptLwe key (block (key.length + 1) cts i) = some (msgs.getD i 0 + e) := by
  have hpos : 0 < key.length + 1 := by omega
  have hcl := chunks_length _ hpos _ _ ho
  simp only [parEncryptLweList, EncGen.forkLweListToLwe] at h
  split at h
  · cases h
  · rename_i gens g1 hf
    obtain ⟨-, -, -, -, -, hg1, hgens⟩ := encFork_ok hf
    split at h
    · cases h
    · rename_i cs hpar
      simp only [Option.some.injEq, Prod.mk.injEq] at h
      obtain ⟨rfl, rfl⟩ := h
      rw [hcl] at hgens hg1
      obtain ⟨hlen, hcell⟩ := ((parFor_complete _ sched _ (by rw [hcl]; exact hp)).1 cs).1 hpar
      rw [hcl] at hlen
      have hb : ∀ i, i < msgs.length →
          (chunks (key.length + 1) out)[i]? = some (block (key.length + 1) out i) := by
        intro i hi
        rw [chunks_eq _ hpos _ _ ho]
        simp [List.getElem?_range hi]
      have hfit : ∀ i, i < msgs.length → Fits key (block (key.length + 1) out i) := by
        intro i hi
        apply block_length
        rw [ho]; exact Nat.mul_le_mul_right _ hi
      have cell : ∀ i, i < msgs.length → ∃ (gi gi' : EncGen) (ct : List (BitVec w)),
          gi.mask = { g.mask.skip (i * (key.length * (w / 8))) with
            bound := g.mask.pos + (i + 1) * (key.length * (w / 8)) } ∧
          gi.noise = { g.noise.skip (i * 768) with bound := g.noise.pos + (i + 1) * 768 } ∧
          encryptLwe f key (block (key.length + 1) out i) (msgs.getD i 0) gi = some (ct, gi') ∧
          cs[i]? = some ct := by
        intro i hi
        obtain ⟨c', hj, hc'⟩ := hcell i _ (hb i hi)
        have e1 : msgs[i]? = some (msgs.getD i 0) := by
          simp [List.getD_eq_getElem?_getD, List.getElem?_eq_getElem hi]
        have e2 : gens[i]? = some { mask := { g.mask.skip (i * (key.length * (w / 8))) with
            bound := g.mask.pos + (i + 1) * (key.length * (w / 8)) }, noise :=
            { g.noise.skip (i * 768) with bound := g.noise.pos + (i + 1) * 768 } } := by
          rw [hgens]
          simp [List.getElem?_range hi, Src.skip, noiseBytesPerLwe, noiseBytesPerCoef,
            maskBytesPerLwe, maskBytesPerCoef]
        simp only [parEncryptJob, e1, e2] at hj
        obtain ⟨⟨ct, gi'⟩, he, rfl⟩ := Option.map_eq_some_iff.1 hj
        exact ⟨_, gi', ct, rfl, rfl, he, hc'⟩
      have hall : ∀ c ∈ cs, c.length = key.length + 1 := by
        intro c hc
        obtain ⟨i, hi, hic⟩ := List.mem_iff_getElem.1 hc
        obtain ⟨gi, gi', ct, _, _, he, hct⟩ := cell i (by omega)
        rw [List.getElem?_eq_getElem hi, hic] at hct
        cases hct
        obtain ⟨_, _, hf', _⟩ := encryptLwe_phase (hfit i (by omega)) he
        exact hf'
      refine ⟨by rw [flatten_length_uniform _ _ hall, hlen], by rw [hg1]; rfl, by rw [hg1]; rfl, ?_⟩
      intro i hi
      obtain ⟨gi, gi', ct, h1, h2, he, hct⟩ := cell i hi
      rw [block_flatten _ hpos cs hall i ct hct]
      obtain ⟨e, hn, hf', hph⟩ := encryptLwe_phase (hfit i hi) he
      exact ⟨gi, gi', e, h1, h2, he, hn, by rw [decryptLwe_eq hf', hph]⟩

/-- The mask part of an encryption is the next `n` words of the mask stream. -/
theorem encrypt_mask {f : GaussianFn w} {key out ct : List (BitVec w)} {msg : BitVec w} {g g' : EncGen}
    (ho : Fits key out) (hb : g.mask.pos ≤ g.mask.bound)
    (h : encryptLwe f key out msg g = some (ct, g')) :
    ct.take key.length = (List.range key.length).map
      (fun j => wordAt w g.mask.table (g.mask.pos + j * (w / 8))) ∧
    g'.mask = g.mask.skip (key.length * (w / 8)) ∧ g'.mask.pos ≤ g'.mask.bound := by
  obtain ⟨mask, e, hr, _, hl, rfl, _⟩ := encryptLwe_eq h
  have hlen : out.length - 1 = key.length := by rw [ho]; rfl
  rw [hlen] at hr hl
  rw [rep_uniform w _ _ hb] at hr
  split at hr
  · rename_i hle
    simp only [Option.some.injEq, Prod.mk.injEq] at hr
    obtain ⟨rfl, hg⟩ := hr
    refine ⟨?_, hg.symm, ?_⟩
    · rw [List.take_append_of_le_length (by omega), List.take_of_length_le (by omega)]
    · rw [← hg]; exact hle
  · cases hr

theorem encryptListAux_masks {f : GaussianFn w} {key : List (BitVec w)} :
    ∀ (cs : List (List (BitVec w))) (ms : List (BitVec w)) (g g' : EncGen)
      (cts : List (List (BitVec w))),
    (∀ c ∈ cs, Fits key c) → cs.length = ms.length → g.mask.pos ≤ g.mask.bound →
    encryptLweListAux f key cs ms g = some (cts, g') →
    g'.mask = g.mask.skip (ms.length * (key.length * (w / 8))) ∧
    ∀ i, i < ms.length → (cts.getD i []).take key.length = (List.range key.length).map
      (fun j => wordAt w g.mask.table (g.mask.pos + i * (key.length * (w / 8)) + j * (w / 8)))
  | [], [], g, g', cts, _, _, _, h => by
    simp only [encryptLweListAux, Option.some.injEq, Prod.mk.injEq] at h
    obtain ⟨rfl, rfl⟩ := h
    exact ⟨by simp [skip_zero], by simp⟩
  | c :: cs, m :: ms, g, g', cts, hc, hl, hb, h => by
    simp only [encryptLweListAux] at h
    split at h
    · cases h
    · rename_i ct g1 e1
      split at h
      · cases h
      · rename_i cts' g2 e2
        simp only [Option.some.injEq, Prod.mk.injEq] at h
        obtain ⟨rfl, rfl⟩ := h
        obtain ⟨m1, m2, m3⟩ := encrypt_mask (hc c (by simp)) hb e1
        obtain ⟨k1, k2⟩ := encryptListAux_masks cs ms g1 g2 cts'
          (fun x hx => hc x (by simp [hx])) (by simpa using hl) m3 e2
        refine ⟨?_, ?_⟩
        · rw [k1, m2, skip_skip, List.length_cons, Nat.add_mul, Nat.one_mul, Nat.add_comm]
        · intro i hi
          cases i with
          | zero => simpa using m1
          | succ i =>
            have := k2 i (by simpa using hi)
            rw [List.getD_cons_succ, this, m2]
            apply List.map_congr_left
            intro j _
            congr 1
            simp only [Src.skip, Nat.add_mul, Nat.one_mul]
            omega

/-- C18: parallel and sequential list encryption, from the same generator, produce the same masks and
leave the mask stream in the same state. (The noises differ, see `C18_lwe_list_noise_differs`.) -/
theorem C18_lwe_list_masks_partial (f : GaussianFn w) (key out msgs cts cts' : List (BitVec w))
    (g g1 g2 : EncGen) (ho : out.length = msgs.length * (key.length + 1)) (sched : List Nat)
    (hp : sched.Perm (List.range msgs.length)) (hb : g.mask.pos ≤ g.mask.bound)
    (h : parEncryptLweList f key (key.length + 1) out msgs g sched = some (cts, g1))
    (h' : encryptLweList f key (key.length + 1) out msgs g = some (cts', g2)) :
    g1.mask = g2.mask ∧ ∀ i, i < msgs.length →
      (block (key.length + 1) cts i).take key.length = (block (key.length + 1) cts' i).take key.length := by
  have hpos : 0 < key.length + 1 := by omega
  obtain ⟨hlen, hmask, -, hel⟩ := C18_lwe_list_elements f key out msgs cts g g1 ho sched hp h
  obtain ⟨es, -, hlen', -⟩ := encryptLweList_block ho h'
  simp only [encryptLweList] at h'
  split at h'
  · cases h'
  · rename_i cs g3 e
    simp only [Option.some.injEq, Prod.mk.injEq] at h'
    obtain ⟨rfl, rfl⟩ := h'
    have hfits := chunks_fits key out _ ho
    obtain ⟨k1, k2⟩ := encryptListAux_masks _ msgs g g3 cs hfits (chunks_length _ hpos _ _ ho) hb e
    obtain ⟨_, _, hl, hf, _⟩ := encryptListAux_spec _ msgs g g3 cs hfits (chunks_length _ hpos _ _ ho) e
    refine ⟨by rw [hmask, k1], ?_⟩
    intro i hi
    obtain ⟨gi, gi', _, hm, _, he, _, _⟩ := hel i hi
    have hfit : Fits key (block (key.length + 1) out i) := by
      apply block_length
      rw [ho]; exact Nat.mul_le_mul_right _ hi
    have hib : gi.mask.pos ≤ gi.mask.bound := by
      rw [hm]; simp only [Src.skip]
      have : i * (key.length * (w / 8)) ≤ (i + 1) * (key.length * (w / 8)) :=
        Nat.mul_le_mul_right _ (by omega)
      omega
    obtain ⟨m1, _, _⟩ := encrypt_mask hfit hib he
    have hx : cs[i]? = some (cs.getD i []) := by
      simp [List.getD_eq_getElem?_getD, List.getElem?_eq_getElem (show i < cs.length by omega)]
    rw [m1, block_flatten _ hpos cs hf i _ hx, k2 i hi, hm]
    rfl

/-- C18 as first stated (parallel = sequential, word for word) is false for LWE lists: here the second
ciphertext gets another noise, because each worker starts at a multiple of 768 bytes of the noise
stream whereas sequential encryption continues where the previous ciphertext stopped. -/
theorem C18_lwe_list_noise_differs :
    let f : GaussianFn 16 := { accept := fun _ _ => true, value := fun u _ => (u.setWidth 16, 0#16) }
    let g : EncGen := { mask := ⟨fun _ => 0#8, 1, 10000⟩, noise := ⟨fun p => BitVec.ofNat 8 (p / 16), 0, 10000⟩ }
    (encryptLweList f [1#16] 2 [0#16, 0#16, 0#16, 0#16] [5#16, 7#16] g).map (·.1) =
      some [0#16, 5#16, 0#16, 0x0108#16] ∧
    (parEncryptLweList f [1#16] 2 [0#16, 0#16, 0#16, 0#16] [5#16, 7#16] g [1, 0]).map (·.1) =
      some [0#16, 5#16, 0#16, 0x3037#16] := by
  decide +kernel

/-- Finding: parallel encryption of an empty list panics (the fork into zero children is an error that
is unwrapped), sequential encryption of an empty list does not. -/
theorem C18_empty_list_panics (f : GaussianFn w) (key : List (BitVec w)) (g : EncGen) :
    parEncryptLweList f key (key.length + 1) [] [] g [] = none ∧
    encryptLweList f key (key.length + 1) [] [] g = some ([], g) :=
  ⟨rfl, rfl⟩

/-! ### C19, LWE -/

/-- C19: the mask bytes reserved per LWE ciphertext by a fork are exactly the bytes that encrypting it
consumes: encryption with a child generator of exactly that many mask bytes never runs out of mask
bytes, and leaves none. -/
theorem C19_lwe (f : GaussianFn w) (key out : List (BitVec w)) (msg : BitVec w) (g : EncGen)
    (ho : Fits key out) (hb : g.mask.bound = g.mask.pos + maskBytesPerLwe w key.length) :
    (∀ e gn, randomNoise f g.noise = some (e, gn) → ∃ ct, encryptLwe f key out msg g =
      some (ct, { mask := { g.mask with pos := g.mask.bound }, noise := gn })) ∧
    (∀ ct g', encryptLwe f key out msg g = some (ct, g') → g'.mask.pos = g.mask.bound) := by
  have hm : maskBytesPerLwe w key.length = key.length * (w / 8) := rfl
  rw [hm] at hb
  constructor
  · intro e gn hn
    obtain ⟨ct, h⟩ := encryptLwe_ok f key out msg g ho (by omega) e gn hn
    refine ⟨ct, ?_⟩
    rw [h]
    simp only [Src.skip, ← hb]
  · intro ct g' h
    obtain ⟨_, h2, _⟩ := encrypt_mask ho (by omega) h
    rw [h2, hb]; rfl

/-- C19: a child with one mask byte less than reserved panics: the budget is tight (words of at least
one byte, dimension at least one). -/
theorem C19_lwe_tight (f : GaussianFn w) (key out : List (BitVec w)) (msg : BitVec w) (g : EncGen)
    (ho : Fits key out) (hp : g.mask.pos ≤ g.mask.bound)
    (hb : g.mask.bound < g.mask.pos + maskBytesPerLwe w key.length) :
    encryptLwe f key out msg g = none := by
  have hm : maskBytesPerLwe w key.length = key.length * (w / 8) := rfl
  rw [hm] at hb
  have hlen : out.length - 1 = key.length := by rw [ho]; rfl
  simp only [encryptLwe, fillMaskAndBody, hlen, rep_uniform w _ _ hp]
  rw [if_neg (show ¬ (g.mask.pos + key.length * (w / 8) ≤ g.mask.bound) by omega)]
  simp

/-- Neither budget is vacuous: 32-bit words, dimension 3, reserve 12 bytes. -/
example : maskBytesPerLwe 32 3 = 12 ∧ noiseBytesPerLwe = 768 := by decide

end Verif.Lwe
