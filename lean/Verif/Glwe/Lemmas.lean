import Verif.Glwe.Model
import Verif.Glwe.Spec
import Verif.Poly.Lemmas
import Verif.Lwe.Lemmas
/-
Lemmas on GLWE containers, encryption, decryption and sample extraction.
-/
set_option linter.unusedSectionVars false
namespace Verif.Glwe
open Verif.Random Verif.Poly

section Ring
variable {R : Type} [CommRing R]

theorem body_eq (N k : Nat) (ct : List R) (h : CtFits N k ct) : bodyOf N ct = block N ct k := by
  have hl : ct.length - N = k * N := by rw [h, Nat.add_mul, Nat.one_mul]; omega
  rw [bodyOf, block, hl, List.take_of_length_le]
  rw [List.length_drop, h, Nat.add_mul, Nat.one_mul]; omega

theorem mask_length (N k : Nat) (ct : List R) (h : CtFits N k ct) : (maskOf N ct).length = k * N := by
  rw [maskOf, List.length_take, h, Nat.add_mul, Nat.one_mul]; omega

theorem body_length (N k : Nat) (ct : List R) (h : CtFits N k ct) : (bodyOf N ct).length = N := by
  rw [bodyOf, List.length_drop, h, Nat.add_mul, Nat.one_mul]; omega

theorem block_take (N m i : Nat) (l : List R) (hi : i < m) : block N (l.take (m * N)) i = block N l i := by
  apply List.ext_getElem?
  intro j
  by_cases hj : j < N
  · rw [block_getElem? N _ i j hj, block_getElem? N _ i j hj, List.getElem?_take_of_lt]
    calc i * N + j < i * N + N := by omega
      _ = (i + 1) * N := by rw [Nat.add_mul, Nat.one_mul]
      _ ≤ m * N := Nat.mul_le_mul_right N hi
  · rw [List.getElem?_eq_none, List.getElem?_eq_none]
    · simp only [block, List.length_take]; omega
    · simp only [block, List.length_take]; omega

theorem block_mask (N k i : Nat) (ct : List R) (h : CtFits N k ct) (hi : i < k) :
    block N (maskOf N ct) i = block N ct i := by
  have hl : ct.length - N = k * N := by rw [h, Nat.add_mul, Nat.one_mul]; omega
  rw [maskOf, hl, block_take N k i ct hi]

theorem block_len (N m i : Nat) (l : List R) (h : l.length = m * N) (hi : i < m) : (block N l i).length = N :=
  block_length N l i (by rw [h]; exact Nat.mul_le_mul_right N hi)

theorem chunks_len (N : Nat) (hN : 0 < N) (m : Nat) (l : List R) (h : l.length = m * N) :
    ∀ p ∈ chunks N l, p.length = N := by
  rw [chunks_eq N hN m l h]
  intro p hp
  obtain ⟨i, hi, rfl⟩ := List.mem_map.1 hp
  exact block_len N m i l h (List.mem_range.1 hi)

theorem zip_chunks (N : Nat) (hN : 0 < N) (m : Nat) (p q : List R) (hp : p.length = m * N)
    (hq : q.length = m * N) :
    (chunks N p).zip (chunks N q) = (List.range m).map fun i => (block N p i, block N q i) := by
  rw [chunks_eq N hN m p hp, chunks_eq N hN m q hq]
  apply List.ext_getElem
  · simp
  · intro i h1 h2; simp

theorem zip_chunks_sum {M : Type} [AddCommMonoid M] (N : Nat) (hN : 0 < N) (m : Nat) (p q : List R)
    (hp : p.length = m * N) (hq : q.length = m * N) (F : List R → List R → M) :
    (((chunks N p).zip (chunks N q)).map fun x => F x.1 x.2).sum =
      ∑ i ∈ Finset.range m, F (block N p i) (block N q i) := by
  rw [zip_chunks N hN m p q hp hq, List.map_map, ← list_sum_range]
  rfl

theorem phase_append (N k : Nat) (key mask body : List R) (hm : mask.length = k * N)
    (hb : body.length = N) :
    glwePhase N k key (mask ++ body) = toRq N body -
      ∑ i ∈ Finset.range k, toRq N (block N mask i) * toRq N (block N key i) := by
  have h : CtFits N k (mask ++ body) := by
    rw [CtFits, List.length_append, hm, hb, Nat.add_mul, Nat.one_mul]
  have h1 : bodyOf N (mask ++ body) = body := by
    rw [bodyOf, List.drop_left']
    rw [List.length_append]; omega
  have h2 : maskOf N (mask ++ body) = mask := by
    rw [maskOf, List.take_left']
    rw [List.length_append]; omega
  rw [glwePhase, ← body_eq N k _ h, h1]
  congr 1
  apply Finset.sum_congr rfl
  intro i hi
  rw [← block_mask N k i _ h (Finset.mem_range.1 hi), h2]

theorem decryptGlwe_spec (N k : Nat) (hN : 0 < N) (key out ct : List R) (hk : KeyFits N k key)
    (hc : CtFits N k ct) (ho : out.length = N) :
    (decryptGlwe N key out ct).length = N ∧
    toRq N (decryptGlwe N key out ct) = glwePhase N k key ct := by
  have hz : zipUpdate (fun _ b => b) out (bodyOf N ct) = bodyOf N ct :=
    zipUpdate_snd _ _ (by rw [ho, body_length N k ct hc])
  obtain ⟨h1, h2⟩ := subMultisum_spec N hN (chunks N (maskOf N ct)) (chunks N key) (bodyOf N ct)
    (body_length N k ct hc) (chunks_len N hN k _ (mask_length N k ct hc)) (chunks_len N hN k _ hk)
  rw [decryptGlwe, hz]
  refine ⟨h1, ?_⟩
  rw [h2, zip_chunks_sum N hN k _ _ (mask_length N k ct hc) hk (fun a b => toRq N a * toRq N b),
    glwePhase, body_eq N k ct hc]
  congr 1
  apply Finset.sum_congr rfl
  intro i hi
  rw [block_mask N k i ct hc (Finset.mem_range.1 hi)]

/-! ### Sample extraction -/

theorem getElem?_to_getD (l : List R) (i : Nat) (h : i < l.length) : l[i]? = some (l.getD i 0) := by
  simp [List.getD_eq_getElem?_getD, List.getElem?_eq_getElem h]

theorem getD_reverse (l : List R) (i : Nat) (h : i < l.length) :
    l.reverse.getD i 0 = l.getD (l.length - 1 - i) 0 := by
  rw [List.getD_eq_getElem?_getD, List.getElem?_reverse h, List.getD_eq_getElem?_getD]

theorem extractPoly_length (opp : Nat) (p : List R) : (extractPoly opp p).length = p.length := by
  rw [extractPoly, rotateLeft_length, negFirst_length, List.length_reverse]

/-- The coefficients of an extracted mask polynomial. -/
theorem extractPoly_getD (N n : Nat) (hn : n < N) (p : List R) (hp : p.length = N) (j : Nat) (hj : j < N) :
    (extractPoly (N - n - 1) p).getD j 0 =
      if j ≤ n then p.getD (n - j) 0 else - p.getD (N + n - j) 0 := by
  have ht : (p.reverse.take (N - n - 1)).length = N - n - 1 := by
    rw [List.length_take, List.length_reverse]; omega
  have hd : (p.reverse.drop (N - n - 1)).length = n + 1 := by
    rw [List.length_drop, List.length_reverse]; omega
  have e : extractPoly (N - n - 1) p =
      p.reverse.drop (N - n - 1) ++ (p.reverse.take (N - n - 1)).map (fun a => -a) := by
    simp only [extractPoly, rotateLeft, negFirst]
    rw [List.take_left' (by rw [List.length_map, ht]), List.drop_left' (by rw [List.length_map, ht])]
  rw [e, Poly.getD_append, hd]
  by_cases h : j ≤ n
  · rw [if_pos (by omega), if_pos h, List.getD_eq_getElem?_getD, List.getElem?_drop,
      ← List.getD_eq_getElem?_getD, getD_reverse _ _ (by omega), hp]
    congr 1; omega
  · rw [if_neg (by omega), if_neg h, neg_getD, List.getD_eq_getElem?_getD,
      List.getElem?_take_of_lt (by omega), ← List.getD_eq_getElem?_getD, getD_reverse _ _ (by omega), hp]
    congr 2; omega

theorem extract_dot (N n : Nat) (hn : n < N) (a s : List R) (ha : a.length = N) :
    ∑ j ∈ Finset.range N, (extractPoly (N - n - 1) a).getD j 0 * s.getD j 0 = negaConv N a s n := by
  rw [negaConv, Finset.sum_comm]
  apply Finset.sum_congr rfl
  intro j hj
  have hj := Finset.mem_range.1 hj
  rw [extractPoly_getD N n hn a ha j hj]
  by_cases h : j ≤ n
  · rw [if_pos h, Finset.sum_eq_single (n - j)]
    · rw [if_pos (by omega)]
    · intro i hi hne
      have := Finset.mem_range.1 hi
      rw [if_neg (by omega), if_neg (by omega)]
    · intro hi; exact absurd (Finset.mem_range.2 (by omega)) hi
  · rw [if_neg h, Finset.sum_eq_single (N + n - j)]
    · rw [if_neg (by omega), if_pos (by omega), neg_mul]
    · intro i hi hne
      have := Finset.mem_range.1 hi
      rw [if_neg (by omega), if_neg (by omega)]
    · intro hi; exact absurd (Finset.mem_range.2 (by omega)) hi

theorem sum_range_mul {M : Type} [AddCommMonoid M] (k N : Nat) (f : Nat → M) :
    ∑ t ∈ Finset.range (k * N), f t = ∑ i ∈ Finset.range k, ∑ j ∈ Finset.range N, f (i * N + j) := by
  induction k with
  | zero => simp
  | succ k ih => rw [Nat.add_mul, Nat.one_mul, Finset.sum_range_add, ih, Finset.sum_range_succ]

theorem subMultisum_getD (N : Nat) (hN : 0 < N) (ps qs : List (List R)) (acc : List R)
    (ha : acc.length = N) (hp : ∀ p ∈ ps, p.length = N) (hq : ∀ q ∈ qs, q.length = N) (n : Nat)
    (hn : n < N) :
    (subMultisum acc ps qs).getD n 0 = acc.getD n 0 -
      ((ps.zip qs).map fun x => negaConv N x.1 x.2 n).sum := by
  have := foldl_measure (fun acc (x : List R × List R) => subMul acc x.1 x.2) (fun a => a.length = N)
    (fun a => a.getD n 0) (fun x => - negaConv N x.1 x.2 n) (ps.zip qs) acc ha
    (by
      intro s x hx hs
      obtain ⟨h1, _, h3⟩ := subMul_spec N hN s x.1 x.2 hs (hp _ (List.of_mem_zip hx).1)
        (hq _ (List.of_mem_zip hx).2)
      exact ⟨h1, by rw [h3 n hn, sub_eq_add_neg]⟩)
  rw [subMultisum, this.2, sub_eq_add_neg]
  congr 1
  induction ps.zip qs with
  | nil => simp
  | cons x l ih => rw [List.map_cons, List.sum_cons, ih, List.map_cons, List.sum_cons]; ring

theorem decryptGlwe_getD (N k : Nat) (hN : 0 < N) (key out ct : List R) (hk : KeyFits N k key)
    (hc : CtFits N k ct) (ho : out.length = N) (n : Nat) (hn : n < N) :
    (decryptGlwe N key out ct).getD n 0 = (bodyOf N ct).getD n 0 -
      ∑ i ∈ Finset.range k, negaConv N (block N (maskOf N ct) i) (block N key i) n := by
  have hz : zipUpdate (fun _ b => b) out (bodyOf N ct) = bodyOf N ct :=
    zipUpdate_snd _ _ (by rw [ho, body_length N k ct hc])
  rw [decryptGlwe, hz, subMultisum_getD N hN _ _ _ (body_length N k ct hc)
    (chunks_len N hN k _ (mask_length N k ct hc)) (chunks_len N hN k _ hk) n hn,
    zip_chunks_sum N hN k _ _ (mask_length N k ct hc) hk (fun a b => negaConv N a b n)]

theorem sampleExtract_spec (N k : Nat) (hN : 0 < N) (key out ct lwe : List R) (hk : KeyFits N k key)
    (hc : CtFits N k ct) (ho : out.length = N) (hl : lwe.length = k * N + 1) (n : Nat) (hn : n < N) :
    ∃ r, sampleExtract N ct lwe n = some r ∧ Lwe.Fits key r ∧
      Lwe.phase key r = (decryptGlwe N key out ct).getD n 0 := by
  have hbl := body_length N k ct hc
  have hml := mask_length N k ct hc
  have hfl : ∀ x ∈ (chunks N (maskOf N ct)).map (extractPoly (N - n - 1)), x.length = N := by
    intro x hx
    obtain ⟨p, hp, rfl⟩ := List.mem_map.1 hx
    rw [extractPoly_length, chunks_len N hN k _ hml p hp]
  have hlen : ((chunks N (maskOf N ct)).map (extractPoly (N - n - 1))).flatten.length = key.length := by
    rw [flatten_length_uniform N _ hfl, List.length_map, chunks_length N hN k _ hml, hk]
  refine ⟨((chunks N (maskOf N ct)).map (extractPoly (N - n - 1))).flatten ++
    [(bodyOf N ct).getD n 0], ?_, ?_, ?_⟩
  · rw [sampleExtract, if_neg (by omega), getElem?_to_getD _ n (by omega)]
    simp only
    rw [if_pos (by omega)]
  · rw [Lwe.Fits, List.length_append, hlen]; rfl
  · rw [Lwe.phase_append _ _ _ hlen, Lwe.multisum_eq _ _ hlen,
      decryptGlwe_getD N k hN key out ct hk hc ho n hn, hk, sum_range_mul]
    congr 1
    apply Finset.sum_congr rfl
    intro i hi
    have hi := Finset.mem_range.1 hi
    rw [← extract_dot N n hn _ _ (block_len N k i _ hml hi)]
    apply Finset.sum_congr rfl
    intro j hj
    have hj := Finset.mem_range.1 hj
    have hget : ((chunks N (maskOf N ct)).map (extractPoly (N - n - 1)))[i]? =
        some (extractPoly (N - n - 1) (block N (maskOf N ct) i)) := by
      rw [chunks_eq N hN k _ hml]
      simp [hi]
    rw [← block_getD N _ i j 0 hj, ← block_getD N key i j 0 hj, block_flatten N hN _ hfl i _ hget]

end Ring

section Words
variable {w : Nat}

theorem noiseTensor_length {f : GaussianFn w} {n : Nat} {g g' : Src} {e : List (BitVec w)}
    (h : randomNoiseTensor f n g = some (e, g')) : e.length = n := by
  simp only [randomNoiseTensor] at h
  split at h
  · cases h
  · rename_i ps g1 e1
    simp only [Option.some.injEq, Prod.mk.injEq] at h
    obtain ⟨rfl, rfl⟩ := h
    have := Lwe.rep_length _ _ _ _ _ e1
    rw [List.length_take, List.length_flatMap]
    simp only [List.length_cons, List.length_nil]
    rw [List.map_const', List.sum_replicate, this, smul_eq_mul]
    omega

theorem addMultisum_chunks (N k : Nat) (hN : 0 < N) (acc mask key : List (BitVec w))
    (ha : acc.length = N) (hm : mask.length = k * N) (hk : KeyFits N k key) :
    (addMultisum acc (chunks N mask) (chunks N key)).length = N ∧
    toRq N (addMultisum acc (chunks N mask) (chunks N key)) = toRq N acc +
      ∑ i ∈ Finset.range k, toRq N (block N mask i) * toRq N (block N key i) := by
  obtain ⟨h1, h2⟩ := addMultisum_spec N hN (chunks N mask) (chunks N key) acc ha
    (chunks_len N hN k _ hm) (chunks_len N hN k _ hk)
  refine ⟨h1, ?_⟩
  rw [h2, zip_chunks_sum N hN k _ _ hm hk (fun a b => toRq N a * toRq N b)]

theorem fill_eq {f : GaussianFn w} {key msg mask body : List (BitVec w)} {N n : Nat} {g g' : EncGen}
    (h : fillMaskAndBody f key N n msg g = some (mask, body, g')) :
    ∃ e, randomNoiseTensor f N g.noise = some (e, g'.noise) ∧
      rep n (uniform w) g.mask = some (mask, g'.mask) ∧ mask.length = n ∧
      body = Poly.add (Poly.addMultisum e (chunks N mask) (chunks N key)) msg := by
  simp only [fillMaskAndBody] at h
  split at h
  · cases h
  · rename_i e gn en
    split at h
    · cases h
    · rename_i m gm em
      simp only [Option.some.injEq, Prod.mk.injEq] at h
      obtain ⟨rfl, rfl, rfl⟩ := h
      exact ⟨e, en, em, Lwe.rep_length _ _ _ _ _ em, rfl⟩

theorem encryptGlwe_eq {f : GaussianFn w} {key out msg ct : List (BitVec w)} {N : Nat} {g g' : EncGen}
    (h : encryptGlwe f key N out msg g = some (ct, g')) :
    ∃ mask e, randomNoiseTensor f N g.noise = some (e, g'.noise) ∧
      rep (out.length - N) (uniform w) g.mask = some (mask, g'.mask) ∧ mask.length = out.length - N ∧
      ct = mask ++ Poly.add (Poly.addMultisum e (chunks N mask) (chunks N key)) msg := by
  simp only [encryptGlwe] at h
  split at h
  · cases h
  · rename_i mask body gg e1
    obtain ⟨e, h1, h2, h3, rfl⟩ := fill_eq e1
    simp only [Option.some.injEq, Prod.mk.injEq] at h
    obtain ⟨rfl, rfl⟩ := h
    exact ⟨mask, e, h1, h2, h3, rfl⟩

theorem encryptGlwe_phase {f : GaussianFn w} {key out msg ct : List (BitVec w)} {N k : Nat}
    (hN : 0 < N) {g g' : EncGen} (hk : KeyFits N k key) (ho : CtFits N k out) (hm : msg.length = N)
    (h : encryptGlwe f key N out msg g = some (ct, g')) :
    ∃ e, randomNoiseTensor f N g.noise = some (e, g'.noise) ∧ e.length = N ∧ CtFits N k ct ∧
      glwePhase N k key ct = toRq N msg + toRq N e := by
  obtain ⟨mask, e, h1, _, h3, rfl⟩ := encryptGlwe_eq h
  have hml : mask.length = k * N := by rw [h3, ho, Nat.add_mul, Nat.one_mul]; omega
  have hel := noiseTensor_length h1
  obtain ⟨a1, a2⟩ := addMultisum_chunks N k hN e mask key hel hml hk
  have hbl : (Poly.add (Poly.addMultisum e (chunks N mask) (chunks N key)) msg).length = N := by
    rw [Poly.add, zipUpdate_length, a1]
  refine ⟨e, h1, hel, by rw [CtFits, List.length_append, hml, hbl, Nat.add_mul, Nat.one_mul], ?_⟩
  rw [phase_append N k key mask _ hml hbl, toRq_add N _ _ (by rw [a1, hm]), a2]
  ring

theorem encryptGlwe_ok (f : GaussianFn w) (key out msg : List (BitVec w)) (N k : Nat) (g : EncGen)
    (ho : CtFits N k out) (hm : g.mask.pos + k * N * (w / 8) ≤ g.mask.bound) (e : List (BitVec w)) (gn : Src)
    (hn : randomNoiseTensor f N g.noise = some (e, gn)) :
    ∃ ct, encryptGlwe f key N out msg g =
      some (ct, { mask := g.mask.skip (k * N * (w / 8)), noise := gn }) := by
  have hl : out.length - N = k * N := by rw [ho, Nat.add_mul, Nat.one_mul]; omega
  simp only [encryptGlwe, fillMaskAndBody, hn, hl]
  rw [rep_uniform _ _ _ (by omega), if_pos hm]
  exact ⟨_, rfl⟩

/-! ### Lists -/

theorem decryptListAux_spec {R : Type} [CommRing R] (N : Nat) (key : List R) :
    ∀ (os cs : List (List R)), os.length = cs.length →
    (decryptGlweListAux N key os cs).length = os.length ∧
    ∀ (i : Nat) (o c : List R), os[i]? = some o → cs[i]? = some c →
      (decryptGlweListAux N key os cs)[i]? = some (decryptGlwe N key o c)
  | [], [], _ => ⟨rfl, by simp⟩
  | o :: os, c :: cs, h => by
    obtain ⟨h1, h2⟩ := decryptListAux_spec N key os cs (by simpa using h)
    refine ⟨by simp [decryptGlweListAux, h1], ?_⟩
    intro i x y hx hy
    cases i with
    | zero =>
      simp only [List.getElem?_cons_zero, Option.some.injEq] at hx hy
      subst hx hy; rfl
    | succ i => exact h2 i x y (by simpa using hx) (by simpa using hy)

theorem decryptGlweList_block {R : Type} [CommRing R] (N k m : Nat) (hN : 0 < N) (key out cts : List R)
    (hk : KeyFits N k key) (ho : out.length = m * N) (hc : cts.length = m * ((k + 1) * N)) :
    (decryptGlweList N k key out cts).length = m * N ∧
    ∀ i, i < m → block N (decryptGlweList N k key out cts) i =
      decryptGlwe N key (block N out i) (block ((k + 1) * N) cts i) := by
  have hkN : 0 < (k + 1) * N := Nat.mul_pos (by omega) hN
  have h1 := chunks_length N hN m out ho
  have h2 := chunks_length ((k + 1) * N) hkN m cts hc
  obtain ⟨a1, a2⟩ := decryptListAux_spec N key (chunks N out) (chunks ((k + 1) * N) cts) (by rw [h1, h2])
  have hget : ∀ i, i < m → (decryptGlweListAux N key (chunks N out) (chunks ((k + 1) * N) cts))[i]? =
      some (decryptGlwe N key (block N out i) (block ((k + 1) * N) cts i)) := by
    intro i hi
    apply a2
    · rw [chunks_eq N hN m out ho]; simp [hi]
    · rw [chunks_eq _ hkN m cts hc]; simp [hi]
  have hlen : ∀ x ∈ decryptGlweListAux N key (chunks N out) (chunks ((k + 1) * N) cts), x.length = N := by
    intro x hx
    obtain ⟨i, hi⟩ := List.mem_iff_getElem?.1 hx
    have him : i < m := by rw [← h1, ← a1]; exact (List.getElem?_eq_some_iff.1 hi).1
    rw [hget i him] at hi; cases hi
    exact (decryptGlwe_spec N k hN key _ _ hk (block_length _ _ _ (by
      rw [hc]; exact Nat.mul_le_mul_right _ him)) (block_len N m i out ho him)).1
  refine ⟨by rw [decryptGlweList, flatten_length_uniform N _ hlen, a1, h1], fun i hi => ?_⟩
  exact block_flatten N hN _ hlen i _ (hget i hi)

theorem encryptListAux_spec {f : GaussianFn w} {key : List (BitVec w)} {N k : Nat} (hN : 0 < N)
    (hk : KeyFits N k key) :
    ∀ (cs ms : List (List (BitVec w))) (g g' : EncGen) (cts : List (List (BitVec w))),
    (∀ c ∈ cs, CtFits N k c) → (∀ m ∈ ms, m.length = N) → cs.length = ms.length →
    encryptGlweListAux f key N cs ms g = some (cts, g') →
    ∃ es, rep ms.length (randomNoiseTensor f N) g.noise = some (es, g'.noise) ∧ cts.length = ms.length ∧
      (∀ c ∈ cts, CtFits N k c) ∧
      ∀ i, i < ms.length → (es.getD i []).length = N ∧
        glwePhase N k key (cts.getD i []) = toRq N (ms.getD i []) + toRq N (es.getD i [])
  | [], [], g, g', cts, _, _, _, h => by
    simp only [encryptGlweListAux, Option.some.injEq, Prod.mk.injEq] at h
    obtain ⟨rfl, rfl⟩ := h
    exact ⟨[], rfl, rfl, by simp, by simp⟩
  | c :: cs, m :: ms, g, g', cts, hc, hm, hl, h => by
    simp only [encryptGlweListAux] at h
    split at h
    · cases h
    · rename_i ct g1 e1
      split at h
      · cases h
      · rename_i cts' g2 e2
        simp only [Option.some.injEq, Prod.mk.injEq] at h
        obtain ⟨rfl, rfl⟩ := h
        obtain ⟨e, n1, n2, n3, n4⟩ := encryptGlwe_phase hN hk (hc c (by simp)) (hm m (by simp)) e1
        obtain ⟨es, k1, k2, k3, k4⟩ := encryptListAux_spec hN hk cs ms g1 g2 cts'
          (fun x hx => hc x (by simp [hx])) (fun x hx => hm x (by simp [hx])) (by simpa using hl) e2
        refine ⟨e :: es, ?_, by simp [k2], ?_, ?_⟩
        · simp [rep, n1, k1]
        · intro x hx
          rcases List.mem_cons.1 hx with rfl | hx
          · exact n3
          · exact k3 x hx
        · intro i hi
          cases i with
          | zero => exact ⟨n2, n4⟩
          | succ i => exact k4 i (by simpa using hi)

end Words
end Verif.Glwe
