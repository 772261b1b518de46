import Verif.Lwe.Lemmas
import Verif.Decomp.Lemmas2
/-
Lemmas for lists of ciphertexts and the keyswitch.
-/
set_option linter.unusedSectionVars false
namespace Verif.Lwe
open Verif.Random

variable {w : Nat}

theorem rep_add {A : Type} (s : Samp A) : ∀ (a b : Nat) (g : Src),
    rep (a + b) s g = (rep a s g).bind fun r => (rep b s r.2).map fun q => (r.1 ++ q.1, q.2)
  | 0, b, g => by
    simp only [Nat.zero_add, rep, Option.bind_some, List.nil_append]
    cases rep b s g <;> rfl
  | a + 1, b, g => by
    rw [Nat.add_right_comm]
    simp only [rep]
    cases h : s g with
    | none => rfl
    | some r =>
      obtain ⟨x, g1⟩ := r
      simp only [rep_add s a b g1]
      cases h1 : rep a s g1 with
      | none => rfl
      | some r1 =>
        obtain ⟨xs, g2⟩ := r1
        simp only [Option.bind_some]
        cases h2 : rep b s g2 with
        | none => rfl
        | some r2 => rfl

theorem rep_one_succ {A : Type} (s : Samp A) (n : Nat) {g g1 g2 : Src} {x : A} {xs : List A}
    (h1 : s g = some (x, g1)) (h2 : rep n s g1 = some (xs, g2)) :
    rep (n + 1) s g = some (x :: xs, g2) := by
  simp [rep, h1, h2]

theorem encryptListAux_spec {f : GaussianFn w} {key : List (BitVec w)} :
    ∀ (cs : List (List (BitVec w))) (ms : List (BitVec w)) (g g' : EncGen)
      (cts : List (List (BitVec w))),
    (∀ c ∈ cs, Fits key c) → cs.length = ms.length →
    encryptLweListAux f key cs ms g = some (cts, g') →
    ∃ es, rep ms.length (randomNoise f) g.noise = some (es, g'.noise) ∧ cts.length = ms.length ∧
      (∀ c ∈ cts, Fits key c) ∧
      ∀ i, i < ms.length → phase key (cts.getD i []) = ms.getD i 0 + es.getD i 0
  | [], [], g, g', cts, _, _, h => by
    simp only [encryptLweListAux, Option.some.injEq, Prod.mk.injEq] at h
    obtain ⟨rfl, rfl⟩ := h
    exact ⟨[], rfl, rfl, by simp, by simp⟩
  | c :: cs, m :: ms, g, g', cts, hc, hl, h => by
    simp only [encryptLweListAux] at h
    split at h
    · cases h
    · rename_i ct g1 e1
      split at h
      · cases h
      · rename_i cts' g2 e2
        simp only [Option.some.injEq, Prod.mk.injEq] at h
        obtain ⟨rfl, rfl⟩ := h
        obtain ⟨e, hn, hf, hp⟩ := encryptLwe_phase (hc c (by simp)) e1
        obtain ⟨es, hr, hl', hf', hp'⟩ := encryptListAux_spec cs ms g1 g2 cts'
          (fun x hx => hc x (by simp [hx])) (by simpa using hl) e2
        refine ⟨e :: es, rep_one_succ _ _ hn hr, by simp [hl'], ?_, ?_⟩
        · intro x hx
          rcases List.mem_cons.1 hx with rfl | hx
          · exact hf
          · exact hf' x hx
        · intro i hi
          cases i with
          | zero => simpa using hp
          | succ i => simpa using hp' i (by simpa using hi)

theorem rep_getD_append {A : Type} (d : A) (xs ys : List A) (i : Nat) :
    (xs ++ ys).getD i d = if i < xs.length then xs.getD i d else ys.getD (i - xs.length) d := by
  simp only [List.getD_eq_getElem?_getD, List.getElem?_append]
  split <;> rfl

theorem block_append_left {α : Type} (n : Nat) (xs ys : List α) (i : Nat)
    (h : (i + 1) * n ≤ xs.length) : block n (xs ++ ys) i = block n xs i := by
  rw [Nat.add_mul, Nat.one_mul] at h
  simp only [block]
  rw [List.drop_append_of_le_length (by omega), List.take_append_of_le_length]
  rw [List.length_drop]; omega

theorem block_append_right {α : Type} (n m : Nat) (xs ys : List α) (i : Nat)
    (h : xs.length = m * n) : block n (xs ++ ys) (m + i) = block n ys i := by
  simp only [block]
  rw [Nat.add_mul, ← h, List.drop_append, List.drop_eq_nil_of_le (by omega),
    show xs.length + i * n - xs.length = i * n by omega, List.nil_append]

theorem kskMessages_getD (b l : Nat) (bit : BitVec w) (k : Nat) (hk : k < l) :
    (kskMessages b l bit).getD k 0 = bit * ((2 ^ (w - b * (k + 1)) : Nat) : BitVec w) := by
  simp [kskMessages, List.getD_eq_getElem?_getD, List.getElem?_range hk,
    Decomp.Term.toRecompositionSummand, BV.shl_eq_mul]

theorem kskMessages_length (b l : Nat) (bit : BitVec w) : (kskMessages b l bit).length = l := by
  simp [kskMessages]

theorem encryptLweList_block {f : GaussianFn w} {key blk ms out : List (BitVec w)} {g g' : EncGen}
    (hb : blk.length = ms.length * (key.length + 1))
    (h : encryptLweList f key (key.length + 1) blk ms g = some (out, g')) :
    ∃ es, rep ms.length (randomNoise f) g.noise = some (es, g'.noise) ∧
      out.length = ms.length * (key.length + 1) ∧
      ∀ i, i < ms.length →
        phase key (block (key.length + 1) out i) = ms.getD i 0 + es.getD i 0 := by
  have hpos : 0 < key.length + 1 := by omega
  simp only [encryptLweList] at h
  split at h
  · cases h
  · rename_i cts g1 e
    simp only [Option.some.injEq, Prod.mk.injEq] at h
    obtain ⟨rfl, rfl⟩ := h
    have hfit : ∀ c ∈ chunks (key.length + 1) blk, Fits key c := by
      rw [chunks_eq _ hpos _ _ hb]
      intro c hc
      obtain ⟨i, hi, rfl⟩ := List.mem_map.1 hc
      apply block_length
      rw [hb]
      exact Nat.mul_le_mul_right _ (List.mem_range.1 hi)
    obtain ⟨es, hr, hl, hf, hp⟩ := encryptListAux_spec _ ms g g1 cts hfit
      (chunks_length _ hpos _ _ hb) e
    refine ⟨es, hr, ?_, ?_⟩
    · rw [flatten_length_uniform _ _ hf, hl]
    · intro i hi
      have hx : cts[i]? = some (cts.getD i []) := by
        simp [List.getD_eq_getElem?_getD, List.getElem?_eq_getElem (show i < cts.length by omega)]
      rw [block_flatten _ hpos cts hf i _ hx]
      exact hp i hi

theorem fillKskAux_spec {f : GaussianFn w} {key : List (BitVec w)} {b l : Nat} :
    ∀ (bits : List (BitVec w)) (blks : List (List (BitVec w))) (g g' : EncGen)
      (blks' : List (List (BitVec w))),
    (∀ x ∈ blks, x.length = l * (key.length + 1)) → blks.length = bits.length →
    fillKeyswitchKeyAux f key b l (key.length + 1) bits blks g = some (blks', g') →
    ∃ es, rep (bits.length * l) (randomNoise f) g.noise = some (es, g'.noise) ∧
      blks'.length = bits.length ∧ (∀ x ∈ blks', x.length = l * (key.length + 1)) ∧
      ∀ i, i < bits.length → ∀ k, k < l →
        phase key (block (key.length + 1) (blks'.getD i []) k) =
          bits.getD i 0 * ((2 ^ (w - b * (k + 1)) : Nat) : BitVec w) + es.getD (i * l + k) 0
  | [], [], g, g', blks', _, _, h => by
    simp only [fillKeyswitchKeyAux, Option.some.injEq, Prod.mk.injEq] at h
    obtain ⟨rfl, rfl⟩ := h
    exact ⟨[], by simp [rep], rfl, by simp, by simp⟩
  | bit :: bits, blk :: blks, g, g', blks', hb, hl, h => by
    simp only [fillKeyswitchKeyAux] at h
    split at h
    · cases h
    · rename_i blk1 g1 e1
      split at h
      · cases h
      · rename_i blks2 g2 e2
        simp only [Option.some.injEq, Prod.mk.injEq] at h
        obtain ⟨rfl, rfl⟩ := h
        obtain ⟨es1, hr1, hl1, hp1⟩ := encryptLweList_block (by
          rw [kskMessages_length]; exact hb blk (by simp)) e1
        rw [kskMessages_length] at hr1 hl1 hp1
        obtain ⟨es2, hr2, hl2, hb2, hp2⟩ := fillKskAux_spec bits blks g1 g2 blks2
          (fun x hx => hb x (by simp [hx])) (by simpa using hl) e2
        have hes1 := rep_length _ _ _ _ _ hr1
        refine ⟨es1 ++ es2, ?_, by simp [hl2], ?_, ?_⟩
        · rw [List.length_cons, Nat.add_mul, Nat.one_mul, Nat.add_comm, rep_add, hr1]
          simp [hr2]
        · intro x hx
          rcases List.mem_cons.1 hx with rfl | hx
          · exact hl1
          · exact hb2 x hx
        · intro i hi k hk
          cases i with
          | zero =>
            rw [rep_getD_append, if_pos (by rw [hes1]; omega)]
            simp only [List.getD_cons_zero, Nat.zero_mul, Nat.zero_add]
            rw [hp1 k hk, kskMessages_getD b l bit k hk]
          | succ i =>
            rw [rep_getD_append, if_neg (by rw [hes1, Nat.add_mul, Nat.one_mul]; omega),
              hes1, show (i + 1) * l + k - l = i * l + k by rw [Nat.add_mul, Nat.one_mul]; omega]
            simp only [List.getD_cons_succ]
            exact hp2 i (by simpa using hi) k hk

theorem block_block {α : Type} (n l : Nat) (xs : List α) (i k : Nat) (hk : k < l) :
    block n (block (l * n) xs i) k = block n xs (i * l + k) := by
  simp only [block]
  rw [List.drop_take, List.drop_drop, List.take_take]
  have h1 : min n (l * n - k * n) = n := by
    rw [← Nat.sub_mul]
    apply Nat.min_eq_left
    exact Nat.le_mul_of_pos_left n (by omega)
  rw [h1]
  congr 2
  rw [Nat.add_mul]
  ring

/-- Key generation: row `(i, k)` of the key has phase `s_i * 2^(w - b(k+1)) + e`, where the noises are
the successive draws of the noise generator. -/
theorem fillKsk_spec {f : GaussianFn w} {s s' ksk ksk' : List (BitVec w)} {b l : Nat} (hl : 0 < l)
    {g g' : EncGen} (hk : ksk.length = s.length * (l * (s'.length + 1)))
    (h : fillKeyswitchKey f s s' b l (s'.length + 1) ksk g = some (ksk', g')) :
    ∃ es, rep (s.length * l) (randomNoise f) g.noise = some (es, g'.noise) ∧
      ksk'.length = s.length * (l * (s'.length + 1)) ∧
      ∀ i, i < s.length → ∀ k, k < l →
        phase s' (block (s'.length + 1) ksk' (i * l + k)) =
          s.getD i 0 * ((2 ^ (w - b * (k + 1)) : Nat) : BitVec w) + es.getD (i * l + k) 0 := by
  have hpos : 0 < l * (s'.length + 1) := Nat.mul_pos hl (by omega)
  simp only [fillKeyswitchKey] at h
  split at h
  · cases h
  · rename_i blks g1 e
    simp only [Option.some.injEq, Prod.mk.injEq] at h
    obtain ⟨rfl, rfl⟩ := h
    have hu : ∀ x ∈ chunks (l * (s'.length + 1)) ksk, x.length = l * (s'.length + 1) := by
      rw [chunks_eq _ hpos _ _ hk]
      intro c hc
      obtain ⟨i, hi, rfl⟩ := List.mem_map.1 hc
      apply block_length
      rw [hk]
      exact Nat.mul_le_mul_right _ (List.mem_range.1 hi)
    obtain ⟨es, hr, hl', hu', hp⟩ := fillKskAux_spec s _ g g1 blks hu
      (chunks_length _ hpos _ _ hk) e
    refine ⟨es, hr, by rw [flatten_length_uniform _ _ hu', hl'], ?_⟩
    intro i hi k hk'
    have hx : blks[i]? = some (blks.getD i []) := by
      simp [List.getD_eq_getElem?_getD, List.getElem?_eq_getElem (show i < blks.length by omega)]
    rw [← block_block _ l _ i k hk', block_flatten _ hpos blks hu' i _ hx]
    exact hp i hi k hk'

/-- The digits used by the keyswitch for a mask element. -/
def ksDigit (b l : Nat) (a : BitVec w) (j : Nat) : BitVec w :=
  (Decomp.digits b l (Decomp.closestRepresentable b l (Decomp.closestRepresentable b l a) >>>
    (w - b * l))).getD j 0#w

theorem zip_reverse_map (l : Nat) {α β : Type} (F : Nat → α) (G : Nat → β) :
    ((List.range l).map F).reverse.zip ((List.range l).map G) =
      (List.range l).map fun j => (F (l - 1 - j), G j) := by
  apply List.ext_getElem
  · simp
  · intro i h1 h2
    simp

theorem keyswitch_inner {s' : List (BitVec w)} (b l : Nat) (blk : List (BitVec w))
    (hblk : blk.length = l * (s'.length + 1)) (a : BitVec w) (acc : List (BitVec w))
    (ha : Fits s' acc) :
    let r := ((chunks (s'.length + 1) blk).reverse.zip
        (Decomp.decompose b l (Decomp.closestRepresentable b l a)).terms).foldl
          (fun acc q => subElementMul acc q.1 q.2.value) acc
    Fits s' r ∧ phase s' r = phase s' acc +
      -(∑ j ∈ Finset.range l, phase s' (block (s'.length + 1) blk (l - 1 - j)) * ksDigit b l a j) := by
  intro r
  have hz : (chunks (s'.length + 1) blk).reverse.zip
      (Decomp.decompose b l (Decomp.closestRepresentable b l a)).terms =
      (List.range l).map fun j => (block (s'.length + 1) blk (l - 1 - j),
        (Decomp.Term.mk (l - j) b (ksDigit b l a j))) := by
    rw [chunks_eq _ (by omega) _ _ hblk, Decomp.decompose_terms]
    exact zip_reverse_map l _ _
  have key := foldl_measure
    (fun (acc : List (BitVec w)) (q : List (BitVec w) × Decomp.Term w) => subElementMul acc q.1 q.2.value)
    (Fits s') (phase s') (fun q => -(phase s' q.1 * q.2.value))
    ((chunks (s'.length + 1) blk).reverse.zip
      (Decomp.decompose b l (Decomp.closestRepresentable b l a)).terms) acc ha (by
      intro st q hq hst
      have hq' : Fits s' q.1 := by
        rw [hz] at hq
        obtain ⟨j, hj, rfl⟩ := List.mem_map.1 hq
        have := List.mem_range.1 hj
        apply block_length
        rw [hblk]
        exact Nat.mul_le_mul_right _ (by omega)
      exact ⟨fits_zipUpdate _ hst, phase_subElementMul _ hst hq'⟩)
  refine ⟨key.1, ?_⟩
  rw [key.2, hz, List.map_map]
  congr 1
  rw [← Finset.sum_neg_distrib]
  exact list_sum_range _ l

theorem zip_eq_map_range {α β : Type} (xs : List α) (ys : List β) (da : α) (db : β)
    (h : xs.length = ys.length) :
    xs.zip ys = (List.range xs.length).map fun i => (xs.getD i da, ys.getD i db) := by
  apply List.ext_getElem
  · simp [h]
  · intro i h1 h2
    have hx : i < xs.length := by simpa using h2
    have hy : i < ys.length := by omega
    simp [List.getD_eq_getElem?_getD, List.getElem?_eq_getElem hx, List.getElem?_eq_getElem hy]

/-- One step of the outer loop of the keyswitch. -/
def ksStep (b l lweSize : Nat) (acc : List (BitVec w)) (p : List (BitVec w) × BitVec w) :
    List (BitVec w) :=
  ((chunks lweSize p.1).reverse.zip
    (Decomp.decompose b l (Decomp.closestRepresentable b l p.2)).terms).foldl
      (fun acc q => subElementMul acc q.1 q.2.value) acc

theorem keyswitch_unfold (b l lweSize : Nat) (ksk after mask : List (BitVec w)) (body : BitVec w)
    (ha : after.length ≠ 0) :
    keyswitchCiphertext b l lweSize ksk after (mask ++ [body]) =
      some (((chunks (l * lweSize) ksk).zip mask).foldl (ksStep b l lweSize)
        (List.replicate (after.length - 1) 0#w ++ [body])) := by
  simp only [keyswitchCiphertext, List.getLast?_append, List.getLast?_singleton, Option.some_or,
    List.dropLast_concat, if_neg ha]
  rfl

/-- The phase of the output of the keyswitch, for arbitrary contents of the key. -/
theorem keyswitch_phase (b l : Nat) (hl : 0 < l) (n : Nat) (s' ksk after mask : List (BitVec w))
    (body : BitVec w) (hk : ksk.length = n * (l * (s'.length + 1))) (ha : Fits s' after)
    (hm : mask.length = n) :
    ∃ r, keyswitchCiphertext b l (s'.length + 1) ksk after (mask ++ [body]) = some r ∧ Fits s' r ∧
      phase s' r = body - ∑ i ∈ Finset.range n, ∑ j ∈ Finset.range l,
        phase s' (block (s'.length + 1) ksk (i * l + (l - 1 - j))) * ksDigit b l (mask.getD i 0) j := by
  have hpos : 0 < l * (s'.length + 1) := Nat.mul_pos hl (by omega)
  have hinit : Fits s' (List.replicate (after.length - 1) 0#w ++ [body]) := by
    rw [Fits] at ha ⊢; simp [ha]
  have hinitp : phase s' (List.replicate (after.length - 1) 0#w ++ [body]) = body := by
    rw [phase_append _ _ _ (by simp; rw [ha]; rfl)]
    have := multisum_zero (R := BitVec w) (after.length - 1) s'
    have e : (0#w : BitVec w) = 0 := rfl
    rw [e, this, sub_zero]
  have hz : (chunks (l * (s'.length + 1)) ksk).zip mask =
      (List.range n).map fun i => (block (l * (s'.length + 1)) ksk i, mask.getD i 0) := by
    rw [zip_eq_map_range _ _ [] 0 (by rw [chunks_length _ hpos _ _ hk, hm]),
      chunks_length _ hpos _ _ hk]
    apply List.map_congr_left
    intro i hi
    rw [chunks_eq _ hpos _ _ hk]
    simp [List.getD_eq_getElem?_getD, List.getElem?_range (List.mem_range.1 hi)]
  have key := foldl_measure (ksStep b l (s'.length + 1))
    (Fits s') (phase s')
    (fun p => -(∑ j ∈ Finset.range l, phase s' (block (s'.length + 1) p.1 (l - 1 - j)) *
      ksDigit b l p.2 j))
    ((chunks (l * (s'.length + 1)) ksk).zip mask)
    (List.replicate (after.length - 1) 0#w ++ [body]) hinit (by
      intro st p hp hst
      have hp' : p.1.length = l * (s'.length + 1) := by
        rw [hz] at hp
        obtain ⟨i, hi, rfl⟩ := List.mem_map.1 hp
        apply block_length
        rw [hk]
        exact Nat.mul_le_mul_right _ (List.mem_range.1 hi)
      exact keyswitch_inner b l p.1 hp' p.2 st hst)
  refine ⟨_, keyswitch_unfold b l _ ksk after mask body (by rw [ha]; omega), key.1, ?_⟩
  rw [key.2, hinitp, hz, List.map_map, list_sum_range]
  simp only [Function.comp, Finset.sum_neg_distrib]
  rw [← sub_eq_add_neg]
  have e : ∀ i, ∀ j ∈ Finset.range l,
      phase s' (block (s'.length + 1) (block (l * (s'.length + 1)) ksk i) (l - 1 - j)) *
        ksDigit b l (mask.getD i 0) j =
      phase s' (block (s'.length + 1) ksk (i * l + (l - 1 - j))) *
        ksDigit b l (mask.getD i 0) j := by
    intro i j hj
    have := Finset.mem_range.1 hj
    rw [block_block _ l _ i (l - 1 - j) (by omega)]
  rw [Finset.sum_congr rfl fun i _ => Finset.sum_congr rfl (e i)]

end Verif.Lwe
