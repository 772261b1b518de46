import Verif.Pks.Lemmas
import Verif.Random.Fork
import Verif.Util.ParChunks
/-
The keys produced by the key generations have the phases of `KeyEnc`.
-/
set_option linter.unusedSectionVars false
namespace Verif.Pks
open Verif.Random Verif.Poly Verif.Glwe Verif.Decomp

variable {w : Nat}

/-- List encryption, block by block. -/
theorem encryptGlweList_block {f : GaussianFn w} {N k n : Nat} (hN : 0 < N) {key out msgs cts : List (BitVec w)}
    {g g' : EncGen} (hk : KeyFits N k key) (ho : out.length = n * ((k + 1) * N)) (hm : msgs.length = n * N)
    (h : encryptGlweList f key N k out msgs g = some (cts, g')) :
    ∃ es, rep n (randomNoiseTensor f N) g.noise = some (es, g'.noise) ∧ cts.length = n * ((k + 1) * N) ∧
      ∀ j, j < n → (es.getD j []).length = N ∧ glwePhase N k key (block ((k + 1) * N) cts j) =
        toRq N (block N msgs j) + toRq N (es.getD j []) := by
  have hkN : 0 < (k + 1) * N := Nat.mul_pos (by omega) hN
  simp only [encryptGlweList] at h
  split at h
  · cases h
  · rename_i cs g1 e1
    simp only [Option.some.injEq, Prod.mk.injEq] at h
    obtain ⟨rfl, rfl⟩ := h
    have hlm := chunks_length N hN n msgs hm
    obtain ⟨es, k1, k2, k3, k4⟩ := encryptListAux_spec hN hk _ _ _ _ _
      (chunks_len _ hkN n out ho) (chunks_len N hN n msgs hm)
      (by rw [hlm, chunks_length _ hkN n out ho]) e1
    rw [hlm] at k1 k2 k4
    refine ⟨es, k1, by rw [flatten_length_uniform _ cs k3, k2], fun j hj => ⟨(k4 j hj).1, ?_⟩⟩
    have hci : cs[j]? = some (cs.getD j []) := by
      rw [List.getD_eq_getElem?_getD, List.getElem?_eq_getElem (by omega)]; rfl
    have hmi : (chunks N msgs).getD j [] = block N msgs j := by
      rw [chunks_eq N hN n msgs hm, List.getD_eq_getElem?_getD]; simp [hj]
    rw [block_flatten _ hkN cs k3 j _ hci, (k4 j hj).2, hmi]

theorem summand_eq (b j : Nat) (x : BitVec w) :
    Term.toRecompositionSummand { level := j + 1, baseLog := b, value := x } =
      x * ((2 ^ (w - b * (j + 1)) : Nat) : BitVec w) := by
  have := Lwe.kskMessages_getD b (j + 1) x j (by omega)
  rw [← this]
  simp [Lwe.kskMessages, List.getD_eq_getElem?_getD]

theorem packingMessages_spec (b l N : Nat) (hN : 0 < N) (bit : BitVec w) :
    (packingMessages b l N bit).length = l * N ∧ ∀ j, j < l → toRq N (block N (packingMessages b l N bit) j) =
      const N bit * 2 ^ (w - b * (j + 1)) := by
  have hu : ∀ x ∈ (List.range l).map (fun j => (List.replicate N 0#w).set 0
      (Term.toRecompositionSummand { level := j + 1, baseLog := b, value := bit })), x.length = N := by
    intro x hx
    obtain ⟨j, _, rfl⟩ := List.mem_map.1 hx
    simp
  refine ⟨by rw [packingMessages, flatten_length_uniform N _ hu]; simp, fun j hj => ?_⟩
  rw [packingMessages, block_flatten N hN _ hu j _ (by rw [List.getElem?_map, List.getElem?_range hj]; rfl)]
  beta_reduce
  obtain ⟨n, rfl⟩ : ∃ n, N = n + 1 := ⟨N - 1, by omega⟩
  rw [List.replicate_succ, List.set_cons_zero, summand_eq]
  have := toRq_const (n + 1) n (bit * ((2 ^ (w - b * (j + 1)) : Nat) : BitVec w))
  refine this.trans ?_
  rw [const_mul, const_nat]
  push_cast; rfl

theorem privateMessages_spec (b l N : Nat) (hN : 0 < N) (fone : BitVec w) (P : List (BitVec w))
    (hP : P.length = N) (bit : BitVec w) :
    (privateMessages b l N fone P bit).length = l * N ∧
    ∀ j, j < l → toRq N (block N (privateMessages b l N fone P bit) j) =
      const N (fone * bit) * toRq N P * 2 ^ (w - b * (j + 1)) := by
  have hu : ∀ x ∈ (List.range l).map (fun j => zipUpdate (fun a x => a + x *
      Term.toRecompositionSummand { level := j + 1, baseLog := b, value := fone * bit })
      (List.replicate N 0#w) P), x.length = N := by
    intro x hx
    obtain ⟨j, _, rfl⟩ := List.mem_map.1 hx
    simp [zipUpdate_length]
  refine ⟨by rw [privateMessages, flatten_length_uniform N _ hu]; simp, fun j hj => ?_⟩
  rw [privateMessages, block_flatten N hN _ hu j _ (by rw [List.getElem?_map, List.getElem?_range hj]; rfl)]
  beta_reduce
  have e : zipUpdate (fun a x => a + x * Term.toRecompositionSummand
      { level := j + 1, baseLog := b, value := fone * bit }) (List.replicate N 0#w) P =
      P.map fun c => c * (fone * bit * ((2 ^ (w - b * (j + 1)) : Nat) : BitVec w)) := by
    rw [zipUpdate_eq_zipWith _ _ _ (by simp [hP]), summand_eq]
    apply List.ext_getElem
    · simp [hP]
    · intro i h1 h2
      simp
  rw [e, toRq_map_mul, const_mul, const_nat]
  push_cast
  ring

theorem rep_split {A : Type} (s : Samp A) (a b : Nat) {g g1 g2 : Src} {xs ys : List A}
    (h1 : rep a s g = some (xs, g1)) (h2 : rep b s g1 = some (ys, g2)) :
    rep (a + b) s g = some (xs ++ ys, g2) ∧ xs.length = a := by
  have := Lwe.rep_add s a b g
  rw [h1] at this
  simp only [Option.bind_some, h2, Option.map_some] at this
  exact ⟨this, Lwe.rep_length _ _ _ _ _ h1⟩

theorem fillPackingAux_spec {f : GaussianFn w} {key : List (BitVec w)} {b l N k : Nat} (hN : 0 < N)
    (hk : KeyFits N k key) : ∀ (bits : List (BitVec w)) (blks : List (List (BitVec w))) (g g' : EncGen)
    (blks' : List (List (BitVec w))), (∀ x ∈ blks, x.length = l * ((k + 1) * N)) → blks.length = bits.length →
    fillPackingKeyAux f key b l N k bits blks g = some (blks', g') →
    ∃ es, rep (bits.length * l) (randomNoiseTensor f N) g.noise = some (es, g'.noise) ∧
      blks'.length = bits.length ∧ (∀ x ∈ blks', x.length = l * ((k + 1) * N)) ∧
      ∀ i, i < bits.length → ∀ j, j < l →
        (es.getD (i * l + j) []).length = N ∧
        glwePhase N k key (block ((k + 1) * N) (blks'.getD i []) j) =
          const N (bits.getD i 0) * 2 ^ (w - b * (j + 1)) + toRq N (es.getD (i * l + j) [])
  | [], [], g, g', blks', _, _, h => by
    simp only [fillPackingKeyAux, Option.some.injEq, Prod.mk.injEq] at h
    obtain ⟨rfl, rfl⟩ := h
    exact ⟨[], by simp [rep], rfl, by simp, by simp⟩
  | bit :: bits, blk :: blks, g, g', blks', hu, hl, h => by
    simp only [fillPackingKeyAux] at h
    split at h
    · cases h
    · rename_i c1 g1 e1
      split at h
      · cases h
      · rename_i cs g2 e2
        simp only [Option.some.injEq, Prod.mk.injEq] at h
        obtain ⟨rfl, rfl⟩ := h
        obtain ⟨m1, m2⟩ := packingMessages_spec b l N hN bit
        obtain ⟨es1, r1, l1, p1⟩ := encryptGlweList_block hN hk (hu blk (by simp)) m1 e1
        obtain ⟨es2, r2, l2, u2, p2⟩ := fillPackingAux_spec hN hk bits blks g1 g2 cs
          (fun x hx => hu x (by simp [hx])) (by simpa using hl) e2
        obtain ⟨r3, l3⟩ := rep_split _ _ _ r1 r2
        refine ⟨es1 ++ es2, ?_, by simp [l2], ?_, ?_⟩
        · rw [List.length_cons, Nat.add_mul, Nat.one_mul, Nat.add_comm]; exact r3
        · intro x hx
          rcases List.mem_cons.1 hx with rfl | hx
          · exact l1
          · exact u2 x hx
        · intro i hi j hj
          cases i with
          | zero =>
            have e : (es1 ++ es2).getD (0 * l + j) [] = es1.getD j [] := by
              rw [Nat.zero_mul, Nat.zero_add, List.getD_eq_getElem?_getD,
                List.getElem?_append_left (by omega), List.getD_eq_getElem?_getD]
            rw [e]
            refine ⟨(p1 j hj).1, ?_⟩
            have := (p1 j hj).2
            rw [m2 j hj] at this
            exact this
          | succ i =>
            have e : (es1 ++ es2).getD ((i + 1) * l + j) [] = es2.getD (i * l + j) [] := by
              rw [Nat.add_mul, Nat.one_mul, List.getD_eq_getElem?_getD,
                List.getElem?_append_right (by omega), List.getD_eq_getElem?_getD, l3]
              congr 2; omega
            rw [e]
            exact p2 i (by simpa using hi) j hj

/-- The packing key generated from the LWE key `s`: block `i` encrypts `s_i`; the noises are the
successive draws of the generator. -/
theorem fillPackingKey_spec {f : GaussianFn w} {s key ksk ksk' : List (BitVec w)} {b l N k : Nat} (hN : 0 < N)
    (hl : 0 < l) (hk : KeyFits N k key) {g g' : EncGen} (hs : ksk.length = s.length * (l * ((k + 1) * N)))
    (h : fillPackingKey f s key b l N k ksk g = some (ksk', g')) :
    ∃ es, rep (s.length * l) (randomNoiseTensor f N) g.noise = some (es, g'.noise) ∧
      (∀ i j, i < s.length → j < l → (es.getD (i * l + j) []).length = N) ∧
      KeyEnc N k b l s.length key ksk' (fun i => const N (s.getD i 0))
        (fun i j => toRq N (es.getD (i * l + j) [])) := by
  have hkN : 0 < (k + 1) * N := Nat.mul_pos (by omega) hN
  have hpos : 0 < l * ((k + 1) * N) := Nat.mul_pos hl hkN
  simp only [fillPackingKey] at h
  split at h
  · cases h
  · rename_i blks g1 e
    simp only [Option.some.injEq, Prod.mk.injEq] at h
    obtain ⟨rfl, rfl⟩ := h
    obtain ⟨es, hr, hl', hu', hp⟩ := fillPackingAux_spec hN hk s _ g g1 blks (chunks_len _ hpos _ _ hs)
      (chunks_length _ hpos _ _ hs) e
    refine ⟨es, hr, fun i j hi hj => (hp i hi j hj).1, by rw [flatten_length_uniform _ _ hu', hl'], ?_⟩
    intro i hi j hj
    have hx : blks[i]? = some (blks.getD i []) := by
      simp [List.getD_eq_getElem?_getD, List.getElem?_eq_getElem (show i < blks.length by omega)]
    rw [← Lwe.block_block _ l _ i j hj, block_flatten _ hpos blks hu' i _ hx]
    exact (hp i hi j hj).2

/-- The private functional key: block `i` encrypts `f(1) · s_i · P`, and the last block `-f(1) · P`. Block
`i` is encrypted with the `i`-th part of the parent streams. -/
theorem parFillPrivateKey_spec {f : GaussianFn w} {s key ksk ksk' P : List (BitVec w)} {b l N k : Nat}
    (hN : 0 < N) (hl : 0 < l) (hk : KeyFits N k key) {fone : BitVec w} (hP : P.length = N) {g g' : EncGen}
    (hs : ksk.length = (s.length + 1) * (l * ((k + 1) * N))) (sched : List Nat)
    (hp : sched.Perm (List.range (s.length + 1)))
    (h : parFillPrivateKey f s key b l N k fone P sched ksk g = some (ksk', g')) :
    g'.mask = g.mask.skip ((s.length + 1) * (l * (k * N * (w / 8)))) ∧
    g'.noise = g.noise.skip ((s.length + 1) * (l * (N * 256))) ∧
    ∃ es : Nat → List (List (BitVec w)),
      (∀ i, i < s.length + 1 → ∃ gn,
        rep l (randomNoiseTensor f N) { g.noise.skip (i * (l * (N * 256))) with bound := g.noise.pos + (i + 1) * (l * (N * 256)) } = some (es i, gn)) ∧
      (∀ i j, i < s.length + 1 → j < l → ((es i).getD j []).length = N) ∧
      KeyEnc N k b l (s.length + 1) key ksk'
        (fun i => const N (fone * (s ++ [-1]).getD i 0) * toRq N P) (fun i j => toRq N ((es i).getD j [])) := by
  have hkN : 0 < (k + 1) * N := Nat.mul_pos (by omega) hN
  have hpos : 0 < l * ((k + 1) * N) := Nat.mul_pos hl hkN
  have hm1 : BitVec.allOnes w = -1 := by
    rw [← BitVec.neg_one_eq_allOnes]; rfl
  simp only [parFillPrivateKey, EncGen.forkPfpkskToChunks] at h
  split at h
  · cases h
  · rename_i gens g1 hf
    obtain ⟨-, -, -, -, -, hg1, hgens⟩ := encFork_ok hf
    have hmb : maskBytesPerPfpkskChunk w l (k + 1) N = l * (k * N * (w / 8)) := by
      simp only [maskBytesPerPfpkskChunk, maskBytesPerGlwe, maskBytesPerPolynomial, maskBytesPerCoef]
      rw [Nat.add_sub_cancel]; ring
    have hnb : noiseBytesPerPfpkskChunk l N = l * (N * 256) := by
      simp only [noiseBytesPerPfpkskChunk, noiseBytesPerGlwe, noiseBytesPerPolynomial, noiseBytesPerCoef]
    rw [hmb, hnb] at hg1 hgens
    split at h
    · cases h
    · rename_i blks hpar
      simp only [Option.some.injEq, Prod.mk.injEq] at h
      obtain ⟨rfl, rfl⟩ := h
      refine ⟨by rw [hg1], by rw [hg1], ?_⟩
      have hjob : ∀ i c c', i < s.length + 1 → c.length = l * ((k + 1) * N) →
          privateJob f key b l N k fone P (s ++ [BitVec.allOnes w]) gens i c = some c' →
          c'.length = l * ((k + 1) * N) ∧ ∃ es gn, rep l (randomNoiseTensor f N)
            { g.noise.skip (i * (l * (N * 256))) with bound := g.noise.pos + (i + 1) * (l * (N * 256)) } = some (es, gn) ∧
            ∀ j, j < l → (es.getD j []).length = N ∧ glwePhase N k key (block ((k + 1) * N) c' j) =
              const N (fone * (s ++ [-1]).getD i 0) * toRq N P * 2 ^ (w - b * (j + 1)) +
                toRq N (es.getD j []) := by
        intro i c c' hi hc hj
        have e1 : (s ++ [BitVec.allOnes w])[i]? = some ((s ++ [-1]).getD i 0) := by
          rw [hm1, List.getD_eq_getElem?_getD, List.getElem?_eq_getElem (by simp; omega)]; rfl
        have e2 : gens[i]? = some (EncGen.mk
            { g.mask with pos := g.mask.pos + i * (l * (k * N * (w / 8))), bound := g.mask.pos + (i + 1) * (l * (k * N * (w / 8))) }
            { g.noise.skip (i * (l * (N * 256))) with bound := g.noise.pos + (i + 1) * (l * (N * 256)) }) := by
          rw [hgens]
          simp [List.getElem?_range hi, Src.skip]
        simp only [privateJob, e1, e2] at hj
        obtain ⟨⟨ct, gi'⟩, he, rfl⟩ := Option.map_eq_some_iff.1 hj
        obtain ⟨m1, m2⟩ := privateMessages_spec b l N hN fone P hP ((s ++ [-1]).getD i 0)
        obtain ⟨es, r1, l1, p1⟩ := encryptGlweList_block hN hk hc m1 he
        refine ⟨l1, es, gi'.noise, r1, fun j hj => ⟨(p1 j hj).1, ?_⟩⟩
        rw [← m2 j hj]; exact (p1 j hj).2
      have hres := (parFor_chunks _ (s.length + 1) _ hpos ksk hs sched hp
        (fun i c c' hi hc hj => (hjob i c c' hi hc hj).1) blks.flatten).1 (by rw [hpar]; rfl)
      have hblk : ∀ i, ∃ es : List (List (BitVec w)), i < s.length + 1 → ∃ gn, rep l (randomNoiseTensor f N)
            { g.noise.skip (i * (l * (N * 256))) with bound := g.noise.pos + (i + 1) * (l * (N * 256)) } = some (es, gn) ∧
            ∀ j, j < l → (es.getD j []).length = N ∧
              glwePhase N k key (block ((k + 1) * N) (block (l * ((k + 1) * N)) blks.flatten i) j) =
              const N (fone * (s ++ [-1]).getD i 0) * toRq N P * 2 ^ (w - b * (j + 1)) +
                toRq N (es.getD j []) := by
        intro i
        by_cases hi : i < s.length + 1
        · obtain ⟨_, es, gn, h1, h2⟩ := hjob i _ _ hi (block_len _ _ i ksk hs hi) (hres.2 i hi)
          exact ⟨es, fun _ => ⟨gn, h1, h2⟩⟩
        · exact ⟨[], fun h => absurd h hi⟩
      choose es hes using hblk
      refine ⟨es, fun i hi => ?_, fun i j hi hj => ?_, hres.1, fun i hi j hj => ?_⟩
      · obtain ⟨gn, h1, _⟩ := hes i hi
        exact ⟨gn, h1⟩
      · obtain ⟨gn, _, h2⟩ := hes i hi
        exact (h2 j hj).1
      · obtain ⟨gn, _, h2⟩ := hes i hi
        rw [← Lwe.block_block _ l _ i j hj]
        exact (h2 j hj).2

end Verif.Pks
