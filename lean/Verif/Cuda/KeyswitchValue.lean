import Verif.Cuda.KeyswitchRun
import Verif.Lwe.Props2
import Verif.Util.ParChunks
/-
The value computed by the keyswitch kernel, and by the keyswitch of the CPU, coefficient by coefficient.
-/
namespace Verif.Cuda
open Lwe (ksDigit keyswitchCiphertext)

variable {w : Nat}

/-! ### The CPU -/

theorem keyswitch_coeff (b l : Nat) (hl : 0 < l) (n m : Nat) (ksk after mask : List (BitVec w))
    (body : BitVec w) (hk : ksk.length = n * (l * (m + 1))) (ha : after.length = m + 1)
    (hm : mask.length = n) :
    ∃ r, keyswitchCiphertext b l (m + 1) ksk after (mask ++ [body]) = some r ∧ r.length = m + 1 ∧
      ∀ idx, idx ≤ m → r.getD idx 0 = (if idx = m then body else 0) -
        ∑ i ∈ Finset.range n, ∑ j ∈ Finset.range l,
          ksk.getD ((i * l + (l - 1 - j)) * (m + 1) + idx) 0 * ksDigit b l (mask.getD i 0) j := by
  have hpos : 0 < l * (m + 1) := Nat.mul_pos hl (by omega)
  have hsub : ∀ (acc c : List (BitVec w)) (d : BitVec w) (idx : Nat), acc.length = m + 1 →
      c.length = m + 1 → idx ≤ m →
      (Lwe.subElementMul acc c d).length = m + 1 ∧
      (Lwe.subElementMul acc c d).getD idx 0 = acc.getD idx 0 + -(c.getD idx 0 * d) := by
    intro acc c d idx h1 h2 h3
    refine ⟨by rw [Lwe.subElementMul, zipUpdate_length, h1], ?_⟩
    rw [Lwe.subElementMul, zipUpdate_getD _ _ _ _ 0 0 (by omega) (by omega), sub_eq_add_neg]
  have hz : (chunks (l * (m + 1)) ksk).zip mask =
      (List.range n).map fun i => (block (l * (m + 1)) ksk i, mask.getD i 0) := by
    rw [Lwe.zip_eq_map_range _ _ [] 0 (by rw [chunks_length _ hpos _ _ hk, hm]),
      chunks_length _ hpos _ _ hk]
    apply List.map_congr_left
    intro i hi
    rw [chunks_eq _ hpos _ _ hk]
    simp [List.getD_eq_getElem?_getD, List.getElem?_range (List.mem_range.1 hi)]
  have inner : ∀ (blk : List (BitVec w)) (a : BitVec w) (acc : List (BitVec w)) (idx : Nat),
      blk.length = l * (m + 1) → acc.length = m + 1 → idx ≤ m →
      (Lwe.ksStep b l (m + 1) acc (blk, a)).length = m + 1 ∧
      (Lwe.ksStep b l (m + 1) acc (blk, a)).getD idx 0 = acc.getD idx 0 +
        -(∑ j ∈ Finset.range l, (block (m + 1) blk (l - 1 - j)).getD idx 0 * ksDigit b l a j) := by
    intro blk a acc idx hblk hacc hidx
    have hzi : (chunks (m + 1) blk).reverse.zip
        (Decomp.decompose b l (Decomp.closestRepresentable b l a)).terms =
        (List.range l).map fun j => (block (m + 1) blk (l - 1 - j),
          (Decomp.Term.mk (l - j) b (ksDigit b l a j))) := by
      rw [chunks_eq _ (by omega) _ _ hblk, Decomp.decompose_terms]
      exact Lwe.zip_reverse_map l _ _
    unfold Lwe.ksStep
    simp only
    rw [hzi]
    have key := foldl_measure
      (fun (acc : List (BitVec w)) (q : List (BitVec w) × Decomp.Term w) =>
        Lwe.subElementMul acc q.1 q.2.value)
      (fun x => x.length = m + 1) (fun x => x.getD idx 0) (fun q => -(q.1.getD idx 0 * q.2.value))
      ((List.range l).map fun j => (block (m + 1) blk (l - 1 - j),
          (Decomp.Term.mk (l - j) b (ksDigit b l a j)))) acc hacc (by
        intro st q hq hst
        have hq' : q.1.length = m + 1 := by
          obtain ⟨j, hj, rfl⟩ := List.mem_map.1 hq
          have := List.mem_range.1 hj
          apply block_length
          rw [hblk]
          exact Nat.mul_le_mul_right _ (by omega)
        exact hsub st q.1 _ idx hst hq' hidx)
    refine ⟨key.1, ?_⟩
    rw [key.2, List.map_map]
    congr 1
    rw [← Finset.sum_neg_distrib]
    exact list_sum_range _ l
  have outer : ∀ idx, idx ≤ m → _ := fun idx hidx => foldl_measure (Lwe.ksStep b l (m + 1))
      (fun x => x.length = m + 1) (fun x => x.getD idx 0)
      (fun p => -(∑ j ∈ Finset.range l, (block (m + 1) p.1 (l - 1 - j)).getD idx 0 * ksDigit b l p.2 j))
      ((chunks (l * (m + 1)) ksk).zip mask) (List.replicate (after.length - 1) 0#w ++ [body])
      (by simp [ha]) (by
        intro st p hp hst
        have hp' : p.1.length = l * (m + 1) := by
          rw [hz] at hp
          obtain ⟨i, hi, rfl⟩ := List.mem_map.1 hp
          apply block_length
          rw [hk]
          exact Nat.mul_le_mul_right _ (List.mem_range.1 hi)
        exact inner p.1 p.2 st idx hp' hst hidx)
  refine ⟨_, Lwe.keyswitch_unfold b l _ ksk after mask body (by omega), (outer 0 (by omega)).1, ?_⟩
  intro idx hidx
  rw [(outer idx hidx).2, hz, List.map_map, list_sum_range]
  simp only [Function.comp, Finset.sum_neg_distrib]
  rw [← sub_eq_add_neg]
  congr 1
  · rw [ha, Nat.add_sub_cancel, List.getD_eq_getElem?_getD]
    by_cases h : idx = m
    · subst h; simp
    · rw [if_neg h, List.getElem?_append_left (by simp; omega)]
      simp [show idx < m by omega]
  · apply Finset.sum_congr rfl
    intro i _
    apply Finset.sum_congr rfl
    intro j hj
    have := Finset.mem_range.1 hj
    rw [block_block _ l _ i (l - 1 - j) (by omega), block_getD _ _ _ _ _ (by omega)]

/-! ### The digits -/

theorem levelDigit_eq (b : Nat) : ∀ (n j : Nat) (s : BitVec w), j < n →
    levelDigit b j s = (Decomp.digits b n s).getD j 0#w := by
  intro n
  induction n with
  | zero => intro j s h; omega
  | succ n ih =>
    intro j s h
    cases j with
    | zero => rfl
    | succ j =>
      show levelDigit b j _ = _
      rw [ih j _ (by omega)]
      rfl

theorem gpuDigit_eq (b l : Nat) (hv : Decomp.ValidParams w b l) (a : BitVec w) (j : Nat) (hj : j < l) :
    gpuDigit b l a j = ksDigit b l a j := by
  unfold gpuDigit ksDigit
  have hc := (Decomp.C08_closest_representable b l hv a).1
  rw [(Decomp.C08_closest_representable b l hv _).2.2.2 hc]
  exact levelDigit_eq b l j _ hj

/-! ### The GPU -/

/-- The accesses of the owner to its cell in the loops over its coefficients. -/
theorem fold_overPart (P : KsArgs w) (t idx : Nat) (ht : idx % ksThreads = t) (hidx : idx ≤ P.dimOut)
    (f : Nat → Instr) (c : Option (BitVec w))
    (hf : ∀ k c, k ≠ idx → cellEff P idx c (f k) = c) :
    (overPart P t f).foldl (cellEff P idx) c = cellEff P idx c (f idx) := by
  have htl : t < ksThreads := ht ▸ owner_lt idx
  have key : ∀ m, ((List.range m).map fun k => f (t + k * ksThreads)).foldl (cellEff P idx) c =
      if idx / ksThreads < m then cellEff P idx c (f idx) else c := by
    intro m
    induction m with
    | zero => rfl
    | succ m ih =>
      rw [List.range_succ, List.map_append, List.foldl_append, ih]
      simp only [List.map_cons, List.map_nil, List.foldl_cons, List.foldl_nil]
      simp only [ksThreads] at *
      by_cases h1 : idx / 128 < m
      · rw [if_pos h1, if_pos (by omega)]
        exact hf _ _ (by omega)
      · rw [if_neg h1]
        by_cases h2 : idx / 128 < m + 1
        · rw [if_pos h2, show t + m * 128 = idx by omega]
        · rw [if_neg h2]
          exact hf _ _ (by omega)
  rw [overPart, key, if_pos]
  rw [part_iff _ _ _ htl]
  simp only [ksThreads] at *; omega

theorem fold_outs (P : KsArgs w) (t idx : Nat) (c : Option (BitVec w)) :
    (overPart P t .out).foldl (cellEff P idx) c = c := by
  unfold overPart
  induction List.range (partPerThread (P.dimOut + 1) t) with
  | nil => rfl
  | cons a l ih => exact ih

/-- One iteration of the loop over the mask. -/
def coeffStep (P : KsArgs w) (idx i : Nat) (c : Option (BitVec w)) : Option (BitVec w) :=
  (List.range P.l).foldl (fun c j => cellEff P idx c (.sub i j idx)) c

theorem fold_segment_succ (P : KsArgs w) (idx i : Nat) (hidx : idx ≤ P.dimOut) (c : Option (BitVec w)) :
    (segment P (idx % ksThreads) (i + 1)).foldl (cellEff P idx) c = coeffStep P idx i c := by
  have : ∀ (L : List Nat) (c : Option (BitVec w)),
      (L.flatMap fun j => overPart P (idx % ksThreads) (.sub i j)).foldl (cellEff P idx) c =
        L.foldl (fun c j => cellEff P idx c (.sub i j idx)) c := by
    intro L
    induction L with
    | nil => intro c; rfl
    | cons j L ih =>
      intro c
      rw [List.flatMap_cons, List.foldl_append, List.foldl_cons,
        fold_overPart P _ idx rfl hidx (.sub i j) c (fun k c hk => if_neg hk), ih]
  unfold segment
  rw [List.foldl_append, this]
  split
  · exact fold_outs P _ _ _
  · rfl

/-- All the accesses of a thread after the first barrier. -/
def tailSegs (P : KsArgs w) (t : Nat) : List Instr :=
  (List.range P.dimIn).flatMap fun i => segment P t (i + 1)

theorem fold_tail (P : KsArgs w) (idx : Nat) (hidx : idx ≤ P.dimOut) (c : Option (BitVec w)) :
    (tailSegs P (idx % ksThreads)).foldl (cellEff P idx) c =
      (List.range P.dimIn).foldl (fun c i => coeffStep P idx i c) c := by
  unfold tailSegs
  induction List.range P.dimIn generalizing c with
  | nil => rfl
  | cons i L ih =>
    rw [List.flatMap_cons, List.foldl_append, fold_segment_succ P idx i hidx, ih]
    rfl

theorem hist_finished (P : KsArgs w) (t : Nat) (th : Thread w) (h1 : th.epoch = P.dimIn)
    (h2 : th.todo = []) : hist P t th = segment P t 0 ++ tailSegs P t := by
  unfold hist tailSegs
  rw [h1, h2, List.length_nil, Nat.sub_zero, List.take_length]
  have : (List.range P.dimIn).flatMap (segment P t) ++ segment P t P.dimIn =
      (List.range (P.dimIn + 1)).flatMap (segment P t) := by
    rw [List.range_succ, List.flatMap_append]; simp
  rw [this, List.range_succ_eq_map, List.flatMap_cons, List.flatMap_map]

theorem segment_zero (P : KsArgs w) (hd : 0 < P.dimIn) (t : Nat) :
    segment P t 0 = overPart P t .zero ++ if t = 0 then [.body] else [] := by
  have h0 : ¬ 0 = P.dimIn := by omega
  simp only [segment, if_neg h0, List.append_nil]

theorem fold_zeros (P : KsArgs w) (idx : Nat) (L : List Instr) (hL : ∀ x ∈ L, ∃ k, x = .zero k)
    (c : Option (BitVec w)) : L.foldl (cellEff P idx) c = if Instr.zero idx ∈ L then some 0#w else c := by
  induction L generalizing c with
  | nil => simp
  | cons x L ih =>
    obtain ⟨k, rfl⟩ := hL x List.mem_cons_self
    rw [List.foldl_cons, ih (fun y hy => hL y (List.mem_cons_of_mem _ hy))]
    by_cases h1 : Instr.zero idx ∈ L
    · rw [if_pos h1, if_pos (List.mem_cons_of_mem _ h1)]
    · rw [if_neg h1]
      by_cases h2 : k = idx
      · subst h2
        rw [if_pos List.mem_cons_self]
        exact if_pos rfl
      · rw [if_neg (by
          intro h
          rcases List.mem_cons.1 h with h | h
          · injection h with h; exact h2 h.symm
          · exact h1 h)]
        exact if_neg h2

/-- The final value of a coefficient, from its start value. -/
def coeff (P : KsArgs w) (idx : Nat) (start : Option (BitVec w)) : Option (BitVec w) :=
  (List.range P.dimIn).foldl (fun c i => coeffStep P idx i c) start

/-- The result of a run: the body starts from the body of the input, or from 0 when the zeroing of its
cell comes last. -/
theorem runBlock_spec (P : KsArgs w) (hf : KsFits P) (sched : List Nat) (out : DVec (BitVec w))
    (ho : out.length = P.dimOut + 1) :
    ∃ st body, runBlock P sched out = .ok st ∧ st.out.length = P.dimOut + 1 ∧
      (body = inWord P P.dimIn ∨ P.dimOut % ksThreads ≠ 0 ∧ body = some 0#w) ∧
      (∀ idx, idx ≤ P.dimOut →
        st.out[idx]? = some (coeff P idx (if idx = P.dimOut then body else some 0#w))) ∧
      (∀ st1, steps P sched (ksStart P out) = .ok st1 → P.dimOut % ksThreads ≠ 0 → After P [] st1 →
        body = some 0#w) := by
  have hi0 := start_inv P out ho
  obtain ⟨st1, e1, hi1, hb1⟩ := steps_ok P hf (fun st => P.dimOut % ksThreads ≠ 0 → BodyCell P st)
    (fun st st' t hi hq hm h => move_body P hf st st' t hi hm h (hq h)) sched (ksStart P out) hi0
    (fun _ => Or.inl (start_before P out))
  have hm1 := steps_measure_le P hf sched _ st1 hi0 e1
  obtain ⟨st2, e2, hfin⟩ := rounds_finish P hf (totalSteps P) st1 hi1
    (le_trans hm1 (start_measure P out))
  have keep : ∀ Q : Block w → Prop, (∀ st st' t, Inv P st → Q st → Move P st t st' → Q st') → Q st1 →
      Inv P st2 ∧ Q st2 := by
    intro Q hQ h1
    obtain ⟨st', e', hi', hq'⟩ := steps_ok P hf Q hQ _ st1 hi1 h1
    rw [e2] at e'
    have := Out.ok.inj e'
    subst this
    exact ⟨hi', hq'⟩
  obtain ⟨hi2, hb2⟩ := keep (fun st => P.dimOut % ksThreads ≠ 0 → BodyCell P st)
    (fun st st' t hi hq hm h => move_body P hf st st' t hi hm h (hq h)) hb1
  have hd := hf.dim
  have thr : ∀ t, t < ksThreads → ∃ th, st2.threads[t]? = some th ∧
      hist P t th = segment P t 0 ++ tailSegs P t := by
    intro t ht
    have hlt : t < st2.threads.length := by rw [hi2.threads]; exact ht
    refine ⟨_, List.getElem?_eq_getElem hlt, ?_⟩
    obtain ⟨a, b⟩ := hfin _ (List.getElem_mem hlt)
    exact hist_finished P t _ a b
  -- every coefficient was written to the output
  have hout : ∀ idx, idx ≤ P.dimOut → st2.out[idx]? = some (cell st2 idx) := by
    intro idx hidx
    obtain ⟨th, h1, h2⟩ := thr (idx % ksThreads) (owner_lt _)
    refine hi2.outs idx hidx th h1 ?_
    rw [h2]
    apply List.mem_append_right
    unfold tailSegs
    refine List.mem_flatMap.2 ⟨P.dimIn - 1, List.mem_range.2 (by omega), ?_⟩
    have hl : P.dimIn - 1 + 1 = P.dimIn := by omega
    rw [hl]
    unfold segment
    rw [if_pos (rfl : P.dimIn = P.dimIn)]
    exact List.mem_append_right _ ((mem_overPart P _ (owner_lt _) _ _).2 ⟨idx, hidx, rfl, rfl⟩)
  -- the cells apart from the racy one
  have hcell : ∀ idx, idx ≤ P.dimOut → (idx ≠ P.dimOut ∨ P.dimOut % ksThreads = 0) →
      cell st2 idx = coeff P idx (if idx = P.dimOut then inWord P P.dimIn else some 0#w) := by
    intro idx hidx hor
    obtain ⟨th, h1, h2⟩ := thr (idx % ksThreads) (owner_lt _)
    rw [hi2.cells idx hidx hor th h1, h2, segment_zero P hd, List.foldl_append, List.foldl_append,
      fold_overPart P _ idx rfl hidx .zero none (fun k c hk => if_neg hk), fold_tail P idx hidx]
    refine congrArg (coeff P idx) ?_
    by_cases hlast : idx = P.dimOut
    · subst hlast
      have h0 : P.dimOut % ksThreads = 0 := by
        rcases hor with h | h
        · exact absurd rfl h
        · exact h
      simp [h0, cellEff]
    · rw [if_neg hlast]
      split
      · simp [cellEff, Ne.symm hlast]
      · simp [cellEff]
  -- the racy cell
  have hafter : ∀ h1 z2, segment P (P.dimOut % ksThreads) 0 = h1 ++ z2 → P.dimOut % ksThreads ≠ 0 →
      After P h1 st2 → cell st2 P.dimOut =
        coeff P P.dimOut (if Instr.zero P.dimOut ∈ z2 then some 0#w else inWord P P.dimIn) := by
    intro h1 z2 hz hne ha
    obtain ⟨th, k1, k2⟩ := thr (P.dimOut % ksThreads) (owner_lt _)
    obtain ⟨th0, k3, _⟩ := thr 0 (by norm_num)
    obtain ⟨_, h2, hh, hc⟩ := ha th th0 k1 k3
    rw [k2, hz, List.append_assoc] at hh
    have hh2 := List.append_cancel_left hh
    rw [hc, ← hh2, List.foldl_append, List.foldl_cons, List.foldl_append,
      fold_tail P P.dimOut (le_refl _), fold_zeros P P.dimOut z2]
    · refine congrArg (coeff P P.dimOut) ?_
      split
      · rfl
      · simp [cellEff]
    · intro x hx
      have : x ∈ segment P (P.dimOut % ksThreads) 0 := by rw [hz]; exact List.mem_append_right _ hx
      rw [segment_zero P hd, if_neg hne, List.append_nil] at this
      obtain ⟨k, _, _, rfl⟩ := (mem_overPart P _ (owner_lt _) _ _).1 this
      exact ⟨k, rfl⟩
  have hzs : P.dimOut % ksThreads ≠ 0 → Instr.zero P.dimOut ∈ segment P (P.dimOut % ksThreads) 0 := by
    intro hne
    rw [segment_zero P hd, if_neg hne, List.append_nil]
    exact (mem_overPart P _ (owner_lt _) _ _).2 ⟨_, le_refl _, rfl, rfl⟩
  have hrun : runBlock P sched out = .ok st2 := by
    unfold runBlock
    rw [e1, Out.bind_ok, e2]
  by_cases hne : P.dimOut % ksThreads = 0
  · refine ⟨st2, inWord P P.dimIn, hrun, hi2.out, Or.inl rfl, ?_, fun _ _ h => absurd hne h⟩
    intro idx hidx
    rw [hout idx hidx, hcell idx hidx (Or.inr hne)]
  · have hfinal : ∀ body, cell st2 P.dimOut = coeff P P.dimOut body → ∀ idx, idx ≤ P.dimOut →
        st2.out[idx]? = some (coeff P idx (if idx = P.dimOut then body else some 0#w)) := by
      intro body hb idx hidx
      rw [hout idx hidx]
      by_cases hlast : idx = P.dimOut
      · subst hlast; rw [if_pos rfl, hb]
      · rw [hcell idx hidx (Or.inl hlast), if_neg hlast, if_neg hlast]
    by_cases hlost : After P [] st1
    · have ha2 := (keep (After P []) (fun st st' t hi hq hm => by
        obtain ⟨o, ho1⟩ : ∃ o, st.threads[P.dimOut % ksThreads]? = some o :=
          ⟨_, List.getElem?_eq_getElem (by rw [hi.threads]; exact owner_lt _)⟩
        refine move_after P st st' t hi hm [] hq ?_
        intro th hth rest hrest
        exact body_once P hf st hi th hth rest hrest (hq o th ho1 hth).1) hlost).2
      have hc := hafter [] _ (List.nil_append _).symm hne ha2
      rw [if_pos (hzs hne)] at hc
      exact ⟨st2, some 0#w, hrun, hi2.out, Or.inr ⟨hne, rfl⟩, hfinal _ hc, fun _ _ _ _ => rfl⟩
    · rcases hb2 hne with hb | ⟨h1, ⟨z2, hz⟩, ha⟩
      · exfalso
        obtain ⟨th, k1, _⟩ := thr (P.dimOut % ksThreads) (owner_lt _)
        obtain ⟨th0, k3, k4⟩ := thr 0 (by norm_num)
        apply (hb th th0 k1 k3).1
        rw [k4, segment_zero P hd, if_pos rfl]
        simp
      · have hc := hafter h1 z2 hz.symm hne ha
        refine ⟨st2, _, hrun, hi2.out, ?_, hfinal _ hc, ?_⟩
        · split
          · exact Or.inr ⟨hne, rfl⟩
          · exact Or.inl rfl
        · intro st1' e1' _ h
          rw [e1] at e1'
          have := Out.ok.inj e1'
          subst this
          exact absurd h hlost

end Verif.Cuda
