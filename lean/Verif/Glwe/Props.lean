import Verif.Glwe.Lemmas
/-
Properties of GLWE encryption (C24), trivial encryption (C15), sample extraction (C25) and seeded GLWE
ciphertexts (C17).
-/
set_option linter.unusedSectionVars false
namespace Verif.Glwe
open Verif.Random Verif.Poly

section Ring
variable {R : Type} [CommRing R]

/-! ### C15, GLWE part -/

/-- C15 (GLWE): a trivial encryption decrypts to exactly its plaintexts, under every key, whatever the
output contained before. -/
theorem C15_glwe_trivial (N k : Nat) (hN : 0 < N) (key out buf msg : List R) (hk : KeyFits N k key)
    (ho : CtFits N k out) (hb : buf.length = N) (hm : msg.length = N) :
    CtFits N k (fillTrivialGlwe N out msg) ∧
    decryptGlwe N key buf (fillTrivialGlwe N out msg) = msg ∧
    CtFits N k (newTrivialGlwe k msg) ∧ decryptGlwe N key buf (newTrivialGlwe k msg) = msg := by
  have main : ∀ o : List R, CtFits N k o → CtFits N k (fillTrivialGlwe N o msg) ∧
      decryptGlwe N key buf (fillTrivialGlwe N o msg) = msg := by
    intro o ho
    have e : fillTrivialGlwe N o msg = List.replicate (k * N) 0 ++ msg := by
      rw [fillTrivialGlwe, List.map_const', mask_length N k o ho,
        zipUpdate_snd _ _ (by rw [body_length N k o ho, hm])]
    have hf : CtFits N k (fillTrivialGlwe N o msg) := by
      rw [e, CtFits, List.length_append, List.length_replicate, hm, Nat.add_mul, Nat.one_mul]
    refine ⟨hf, ?_⟩
    obtain ⟨d1, d2⟩ := decryptGlwe_spec N k hN key buf _ hk hf hb
    apply toRq_inj N hN _ _ d1 hm
    rw [d2, e, phase_append N k key _ _ (by simp) hm]
    have : ∀ i ∈ Finset.range k, toRq N (block N (List.replicate (k * N) (0 : R)) i) * toRq N (block N key i) = 0 := by
      intro i _
      rw [block, List.drop_replicate, List.take_replicate, toRq_zero, zero_mul]
    rw [Finset.sum_eq_zero this, sub_zero]
  obtain ⟨h1, h2⟩ := main out ho
  have hn : newTrivialGlwe k msg = fillTrivialGlwe N (List.replicate (N * (k + 1)) 0) msg := by
    rw [newTrivialGlwe, hm]
  obtain ⟨h3, h4⟩ := main (List.replicate (N * (k + 1)) 0) (by rw [CtFits, List.length_replicate, Nat.mul_comm])
  rw [hn]
  exact ⟨h1, h2, h3, h4⟩

example : ∃ key out msg : List Int, KeyFits 2 1 key ∧ CtFits 2 1 out ∧ msg.length = 2 ∧
    fillTrivialGlwe 2 out msg = [0, 0, 5, 6] ∧ decryptGlwe 2 key [9, 9] [0, 0, 5, 6] = [5, 6] :=
  ⟨[1, 1], [7, 7, 7, 7], [5, 6], rfl, rfl, rfl, by decide, by decide⟩

/-! ### C25 -/

/-- C25: the LWE ciphertext extracted at index `n` decrypts, under the LWE key made of the coefficients
of the GLWE key, to coefficient `n` of the GLWE decryption. -/
theorem C25_sample_extraction (N k : Nat) (key out ct lwe : List R) (hk : KeyFits N k key)
    (hc : CtFits N k ct) (ho : out.length = N) (hl : lwe.length = k * N + 1) (n : Nat) (hn : n < N) :
    ∃ r, sampleExtract N ct lwe n = some r ∧
      Lwe.decryptLwe (intoLweSecretKey key) r = some ((decryptGlwe N key out ct).getD n 0) := by
  obtain ⟨r, h1, h2, h3⟩ := sampleExtract_spec N k (by omega) key out ct lwe hk hc ho hl n hn
  refine ⟨r, h1, ?_⟩
  rw [intoLweSecretKey, Lwe.decryptLwe_eq h2, h3]

/-- C25: the extracted ciphertext, word by word: mask word `i N + j` is `a_i[n - j]` for `j ≤ n` and
`-a_i[N + n - j]` for `j > n`; the last word is `b[n]`. The previous content of the output does not
matter. -/
theorem C25_words (N k : Nat) (ct lwe r : List R) (hc : CtFits N k ct) (n : Nat)
    (h : sampleExtract N ct lwe n = some r) :
    n < N ∧ r.length = k * N + 1 ∧ r.getD (k * N) 0 = ct.getD (k * N + n) 0 ∧
    ∀ i j, i < k → j < N → r.getD (i * N + j) 0 =
      if j ≤ n then ct.getD (i * N + (n - j)) 0 else - ct.getD (i * N + (N + n - j)) 0 := by
  have hbl := body_length N k ct hc
  have hml := mask_length N k ct hc
  simp only [sampleExtract] at h
  split at h
  · cases h
  · rename_i hne
    split at h
    · cases h
    · rename_i b eb
      have hnN : n < N := by rw [← hbl]; exact (List.getElem?_eq_some_iff.1 eb).1
      have hN : 0 < N := by omega
      split at h
      · cases h
        have hfl : ∀ x ∈ (chunks N (maskOf N ct)).map (extractPoly (N - n - 1)), x.length = N := by
          intro x hx
          obtain ⟨p, hp, rfl⟩ := List.mem_map.1 hx
          rw [extractPoly_length, chunks_len N hN k _ hml p hp]
        have hlen : ((chunks N (maskOf N ct)).map (extractPoly (N - n - 1))).flatten.length = k * N := by
          rw [flatten_length_uniform N _ hfl, List.length_map, chunks_length N hN k _ hml]
        refine ⟨hnN, by rw [List.length_append, hlen]; rfl, ?_, ?_⟩
        · rw [Poly.getD_append, hlen, if_neg (by omega), Nat.sub_self]
          have : b = (bodyOf N ct).getD n 0 := by rw [List.getD_eq_getElem?_getD, eb]; rfl
          rw [List.getD_cons_zero, this, body_eq N k ct hc, block_getD _ _ _ _ _ hnN]
        · intro i j hi hj
          have hlt : i * N + j < k * N :=
            calc i * N + j < i * N + N := by omega
              _ = (i + 1) * N := by rw [Nat.add_mul, Nat.one_mul]
              _ ≤ k * N := Nat.mul_le_mul_right N hi
          have hget : ((chunks N (maskOf N ct)).map (extractPoly (N - n - 1)))[i]? =
              some (extractPoly (N - n - 1) (block N (maskOf N ct) i)) := by
            rw [chunks_eq N hN k _ hml]
            simp [hi]
          rw [Poly.getD_append, hlen, if_pos hlt, ← block_getD N _ i j 0 hj,
            block_flatten N hN _ hfl i _ hget, block_mask N k i ct hc hi,
            extractPoly_getD N n hnN _ (block_len N (k + 1) i ct hc (by omega)) j hj]
          split
          · rw [block_getD _ _ _ _ _ (by omega)]
          · rw [block_getD _ _ _ _ _ (by omega)]
      · cases h

/-- C25: the call panics exactly when the index is out of range or the output does not have the right
size. -/
theorem C25_panics (N k : Nat) (ct lwe : List R) (hc : CtFits N k ct) (n : Nat) :
    sampleExtract N ct lwe n = none ↔ ¬ (n < N ∧ lwe.length = k * N + 1) := by
  have hbl := body_length N k ct hc
  have hml := mask_length N k ct hc
  rw [sampleExtract]
  by_cases h0 : lwe.length = 0
  · rw [if_pos h0]; simp only [true_iff]; omega
  · rw [if_neg h0]
    by_cases hn : n < N
    · rw [getElem?_to_getD _ n (by omega)]
      simp only
      by_cases hl : lwe.length - 1 = (maskOf N ct).length
      · rw [if_pos hl]
        simp only [reduceCtorEq, false_iff, not_not]
        omega
      · rw [if_neg hl]
        simp only [true_iff]
        omega
    · rw [List.getElem?_eq_none (by omega)]
      simp only [true_iff]
      omega

example : sampleExtract 2 [1, 2, 3, 4, 5, 6] [0, 0, 0, 0, 0] 0 = some [1, -2, 3, -4, (5 : Int)] ∧
    decryptGlwe 2 [1, 0, 0, 1] [0, 0] [1, 2, 3, 4, 5, (6 : Int)] = [8, 1] ∧
    Lwe.decryptLwe [1, 0, 0, 1] [1, -2, 3, -4, (5 : Int)] = some 8 := by decide

end Ring

section Words
variable {w : Nat}

/-! ### C24 -/

/-- C24: decrypting a GLWE encryption gives, coefficient by coefficient, the message plus the noise that
was drawn from the noise stream. -/
theorem C24_decrypt_encrypt (f : GaussianFn w) (N k : Nat) (hN : 0 < N) (key out msg ct buf : List (BitVec w))
    (g g' : EncGen) (hk : KeyFits N k key) (ho : CtFits N k out) (hm : msg.length = N)
    (hb : buf.length = N) (h : encryptGlwe f key N out msg g = some (ct, g')) :
    CtFits N k ct ∧ (decryptGlwe N key buf ct).length = N ∧
    ∃ e, randomNoiseTensor f N g.noise = some (e, g'.noise) ∧ e.length = N ∧
      ∀ i, i < N → (decryptGlwe N key buf ct).getD i 0 = msg.getD i 0 + e.getD i 0 := by
  obtain ⟨e, h1, h2, h3, h4⟩ := encryptGlwe_phase hN hk ho hm h
  obtain ⟨d1, d2⟩ := decryptGlwe_spec N k hN key buf ct hk h3 hb
  refine ⟨h3, d1, e, h1, h2, ?_⟩
  have : decryptGlwe N key buf ct = Poly.add msg e := by
    apply toRq_inj N hN _ _ d1 (by rw [Poly.add, zipUpdate_length, hm])
    rw [d2, h4, toRq_add N _ _ (by rw [hm, h2])]
  intro i hi
  rw [this, Poly.add, zipUpdate_getD _ _ _ _ 0 0 (by omega) (by omega)]

/-- C24: encryption succeeds whenever the mask stream has `k N` words left and a noise polynomial can be
drawn; it then consumes exactly those mask bytes. -/
theorem C24_encrypt_ok (f : GaussianFn w) (N k : Nat) (key out msg : List (BitVec w)) (g : EncGen)
    (ho : CtFits N k out) (hm : g.mask.pos + k * N * (w / 8) ≤ g.mask.bound) (e : List (BitVec w)) (gn : Src)
    (hn : randomNoiseTensor f N g.noise = some (e, gn)) :
    ∃ ct, encryptGlwe f key N out msg g =
      some (ct, { mask := g.mask.skip (k * N * (w / 8)), noise := gn }) :=
  encryptGlwe_ok f key out msg N k g ho hm e gn hn

/-- C24: encrypting zero is encrypting the zero polynomial. -/
theorem C24_encrypt_zero (f : GaussianFn w) (N k : Nat) (hN : 0 < N) (key out : List (BitVec w))
    (g : EncGen) (hk : KeyFits N k key) (ho : CtFits N k out) :
    encryptZeroGlwe f key N out g = encryptGlwe f key N out (List.replicate N 0#w) g := by
  simp only [encryptZeroGlwe, encryptGlwe, fillMaskAndBody]
  cases h1 : randomNoiseTensor f N g.noise with
  | none => rfl
  | some x =>
    obtain ⟨e, gn⟩ := x
    simp only
    cases h2 : rep (out.length - N) (uniform w) g.mask with
    | none => rfl
    | some y =>
      obtain ⟨mask, gm⟩ := y
      simp only
      have hml : mask.length = k * N := by
        rw [Lwe.rep_length _ _ _ _ _ h2, ho, Nat.add_mul, Nat.one_mul]; omega
      obtain ⟨a1, _⟩ := addMultisum_chunks N k hN e mask key (noiseTensor_length h1) hml hk
      congr 3
      apply list_ext_getD
      · rw [Poly.add, zipUpdate_length]
      · intro i hi
        rw [Poly.add, zipUpdate_getD _ _ _ _ 0 0 hi (by rw [List.length_replicate]; omega)]
        simp [List.getD_eq_getElem?_getD, List.getElem?_replicate]
        split <;> simp

/-- C24 (lists): the `i`-th decrypted polynomial is the `i`-th message plus the `i`-th noise polynomial
of the noise stream. -/
theorem C24_list (f : GaussianFn w) (N k n : Nat) (hN : 0 < N) (key out msgs cts buf : List (BitVec w))
    (g g' : EncGen) (hk : KeyFits N k key) (ho : out.length = n * ((k + 1) * N))
    (hm : msgs.length = n * N) (hb : buf.length = n * N)
    (h : encryptGlweList f key N k out msgs g = some (cts, g')) :
    cts.length = n * ((k + 1) * N) ∧ (decryptGlweList N k key buf cts).length = n * N ∧
    ∃ es, rep n (randomNoiseTensor f N) g.noise = some (es, g'.noise) ∧
      ∀ i j, i < n → j < N → (decryptGlweList N k key buf cts).getD (i * N + j) 0 =
        msgs.getD (i * N + j) 0 + (es.getD i []).getD j 0 := by
  have hkN : 0 < (k + 1) * N := Nat.mul_pos (by omega) hN
  simp only [encryptGlweList] at h
  split at h
  · cases h
  · rename_i cs g1 e1
    simp only [Option.some.injEq, Prod.mk.injEq] at h
    obtain ⟨rfl, rfl⟩ := h
    have hlm := chunks_length N hN n msgs hm
    obtain ⟨es, k1, k2, k3, k4⟩ := encryptListAux_spec hN hk _ _ _ _ _
      (chunks_len _ hkN n out ho) (chunks_len N hN n msgs hm)
      (by rw [hlm, chunks_length _ hkN n out ho]) e1
    rw [hlm] at k1 k2 k4
    have hcl : cs.flatten.length = n * ((k + 1) * N) := by rw [flatten_length_uniform _ cs k3, k2]
    obtain ⟨d1, d2⟩ := decryptGlweList_block N k n hN key buf cs.flatten hk hb hcl
    refine ⟨hcl, d1, es, k1, ?_⟩
    intro i j hi hj
    obtain ⟨m1, m2⟩ := k4 i hi
    have hci : cs[i]? = some (cs.getD i []) := by
      rw [List.getD_eq_getElem?_getD, List.getElem?_eq_getElem (by omega)]; rfl
    have hmi : (chunks N msgs).getD i [] = block N msgs i := by
      rw [chunks_eq N hN n msgs hm, List.getD_eq_getElem?_getD]; simp [hi]
    obtain ⟨p1, p2⟩ := decryptGlwe_spec N k hN key (block N buf i) (cs.getD i []) hk
      (k3 _ (List.mem_of_getElem? hci)) (block_len N n i buf hb hi)
    have : decryptGlwe N key (block N buf i) (cs.getD i []) = Poly.add (block N msgs i) (es.getD i []) := by
      apply toRq_inj N hN _ _ p1 (by rw [Poly.add, zipUpdate_length, block_len N n i msgs hm hi])
      rw [p2, m2, hmi, toRq_add N _ _ (by rw [block_len N n i msgs hm hi, m1])]
    rw [← block_getD N _ i j 0 hj, d2 i hi, block_flatten _ hkN cs k3 i _ hci, this, Poly.add,
      zipUpdate_getD _ _ _ _ 0 0 (by rw [block_len N n i msgs hm hi]; exact hj) (by rw [m1]; exact hj),
      block_getD N msgs i j 0 hj]

example :
    let f : GaussianFn 16 := { accept := fun _ _ => true, value := fun u _ => (u.setWidth 16 &&& 3#16, 1#16) }
    let g : EncGen := { mask := ⟨fun p => BitVec.ofNat 8 (p * p), 1, 1000⟩, noise := ⟨fun p => BitVec.ofNat 8 p, 1, 1000⟩ }
    ∃ ct g', encryptGlwe f [1#16, 0#16] 2 [0#16, 0#16, 0#16, 0#16] [100#16, 200#16] g = some (ct, g') ∧
      decryptGlwe 2 [1#16, 0#16] [0#16, 0#16] ct = [101#16, 201#16] := by
  refine ⟨_, _, rfl, ?_⟩
  decide

/-! ### C17, GLWE part -/

/-- C17 (GLWE): the seeded encryption followed by the expansion from a mask generator in the same state
is the standard encryption: same words, same panics, same final states. -/
theorem C17_glwe (f : GaussianFn w) (N k : Nat) (key out msg : List (BitVec w)) (g : EncGen)
    (hk : KeyFits N k key) (ho : CtFits N k out) :
    (∀ body g', encryptSeededGlwe f key N msg g = some (body, g') →
      ∃ mask, expandGlwe N out body g.mask = some (mask ++ body, g'.mask) ∧
        encryptGlwe f key N out msg g = some (mask ++ body, g')) ∧
    (encryptSeededGlwe f key N msg g = none → encryptGlwe f key N out msg g = none) := by
  have hl : out.length - N = key.length := by rw [ho, hk, Nat.add_mul, Nat.one_mul]; omega
  simp only [encryptSeededGlwe, encryptGlwe, expandGlwe, hl]
  cases h : fillMaskAndBody f key N key.length msg g with
  | none => exact ⟨(fun _ _ h => by cases h), fun _ => rfl⟩
  | some x =>
    obtain ⟨mask, body, g1⟩ := x
    obtain ⟨e, h1, h2, h3, _⟩ := fill_eq h
    constructor
    · intro b g' hb
      simp only [Option.some.injEq, Prod.mk.injEq] at hb
      obtain ⟨rfl, rfl⟩ := hb
      exact ⟨mask, by rw [h2], rfl⟩
    · intro h; cases h

theorem seededGlweListAux (f : GaussianFn w) (N k : Nat) (key : List (BitVec w)) (hk : KeyFits N k key) :
    ∀ (cs bs ms : List (List (BitVec w))) (g : EncGen),
    (∀ c ∈ cs, CtFits N k c) → cs.length = bs.length → bs.length = ms.length →
    (∀ bs' g', encryptSeededGlweListAux f key N bs ms g = some (bs', g') →
      ∃ cts, expandGlweListAux N cs bs' g.mask = some (cts, g'.mask) ∧
        encryptGlweListAux f key N cs ms g = some (cts, g')) ∧
    (encryptSeededGlweListAux f key N bs ms g = none → encryptGlweListAux f key N cs ms g = none)
  | [], [], [], g, _, _, _ => by
    constructor
    · intro bs' g' h
      simp only [encryptSeededGlweListAux, Option.some.injEq, Prod.mk.injEq] at h
      obtain ⟨rfl, rfl⟩ := h
      exact ⟨[], rfl, rfl⟩
    · intro h; cases h
  | c :: cs, b :: bs, m :: ms, g, hc, h1, h2 => by
    obtain ⟨k1, k2⟩ := C17_glwe f N k key c m g hk (hc c (by simp))
    simp only [encryptSeededGlweListAux, encryptGlweListAux]
    cases h3 : encryptSeededGlwe f key N m g with
    | none =>
      rw [k2 h3]
      exact ⟨(fun _ _ h => by cases h), fun _ => rfl⟩
    | some r =>
      obtain ⟨b', g1⟩ := r
      obtain ⟨mask, e1, e2⟩ := k1 b' g1 h3
      obtain ⟨ih1, ih2⟩ := seededGlweListAux f N k key hk cs bs ms g1 (fun x hx => hc x (by simp [hx]))
        (by simpa using h1) (by simpa using h2)
      rw [e2]
      simp only
      cases h4 : encryptSeededGlweListAux f key N bs ms g1 with
      | none =>
        rw [ih2 h4]
        exact ⟨(fun _ _ h => by cases h), fun _ => rfl⟩
      | some r =>
        obtain ⟨bs2, g2⟩ := r
        obtain ⟨cts, e3, e4⟩ := ih1 bs2 g2 h4
        rw [e4]
        constructor
        · intro bs' g' h
          simp only [Option.some.injEq, Prod.mk.injEq] at h
          obtain ⟨rfl, rfl⟩ := h
          exact ⟨(mask ++ b') :: cts, by simp only [expandGlweListAux, e1, e3], rfl⟩
        · intro h; cases h

theorem seededGlweListAux_len (f : GaussianFn w) (N k : Nat) (hN : 0 < N) (key : List (BitVec w))
    (hk : KeyFits N k key) :
    ∀ (bs ms : List (List (BitVec w))) (g g' : EncGen) (bs' : List (List (BitVec w))),
    bs.length = ms.length → encryptSeededGlweListAux f key N bs ms g = some (bs', g') →
    ∀ b ∈ bs', b.length = N
  | [], [], g, g', bs', _, h => by
    simp only [encryptSeededGlweListAux, Option.some.injEq, Prod.mk.injEq] at h
    obtain ⟨rfl, _⟩ := h
    simp
  | b :: bs, m :: ms, g, g', bs', hl, h => by
    simp only [encryptSeededGlweListAux] at h
    split at h
    · cases h
    · rename_i x g1 e1
      split at h
      · cases h
      · rename_i xs g2 e2
        simp only [Option.some.injEq, Prod.mk.injEq] at h
        obtain ⟨rfl, rfl⟩ := h
        intro y hy
        rcases List.mem_cons.1 hy with rfl | hy
        · simp only [encryptSeededGlwe] at e1
          split at e1
          · cases e1
          · rename_i mask body gg e3
            simp only [Option.some.injEq, Prod.mk.injEq] at e1
            obtain ⟨rfl, rfl⟩ := e1
            obtain ⟨e, h1, _, h3, rfl⟩ := fill_eq e3
            rw [Poly.add, zipUpdate_length]
            exact (addMultisum_chunks N k hN e mask key (noiseTensor_length h1) (by rw [h3, hk]) hk).1
        · exact seededGlweListAux_len f N k hN key hk bs ms g1 g2 xs (by simpa using hl) e2 y hy

/-- C17 (GLWE lists): the seeded list encryption expands, from a mask generator in the same state, to
exactly the standard list encryption. -/
theorem C17_glwe_list (f : GaussianFn w) (N k n : Nat) (hN : 0 < N) (key out bodies msgs : List (BitVec w))
    (g : EncGen) (hk : KeyFits N k key) (ho : out.length = n * ((k + 1) * N))
    (hb : bodies.length = n * N) (hm : msgs.length = n * N) :
    (∀ bs g', encryptSeededGlweList f key N bodies msgs g = some (bs, g') →
      ∃ cts, expandGlweList N k out bs g.mask = some (cts, g'.mask) ∧
        encryptGlweList f key N k out msgs g = some (cts, g')) ∧
    (encryptSeededGlweList f key N bodies msgs g = none →
      encryptGlweList f key N k out msgs g = none) := by
  have hkN : 0 < (k + 1) * N := Nat.mul_pos (by omega) hN
  have hbm : (chunks N bodies).length = (chunks N msgs).length := by
    rw [chunks_length N hN n bodies hb, chunks_length N hN n msgs hm]
  obtain ⟨h1, h2⟩ := seededGlweListAux f N k key hk (chunks ((k + 1) * N) out) (chunks N bodies)
    (chunks N msgs) g (chunks_len _ hkN n out ho)
    (by rw [chunks_length _ hkN n out ho, chunks_length N hN n bodies hb]) hbm
  simp only [encryptSeededGlweList, encryptGlweList, expandGlweList]
  cases h3 : encryptSeededGlweListAux f key N (chunks N bodies) (chunks N msgs) g with
  | none =>
    rw [h2 h3]
    exact ⟨(fun _ _ h => by cases h), fun _ => rfl⟩
  | some r =>
    obtain ⟨bs, g1⟩ := r
    obtain ⟨cts, e1, e2⟩ := h1 bs g1 h3
    constructor
    · intro bs' g' h
      simp only [Option.some.injEq, Prod.mk.injEq] at h
      obtain ⟨rfl, rfl⟩ := h
      refine ⟨cts.flatten, ?_, by rw [e2]⟩
      rw [chunks_of_flatten N hN bs (seededGlweListAux_len f N k hN key hk _ _ _ _ _ hbm h3), e1]
    · intro h; cases h

end Words
end Verif.Glwe
