import Verif.Engine.VecLemmas
/-
C48: the vector operations of the default engine act on every element.
-/
set_option linter.unusedSectionVars false
namespace Verif.Engine
open Verif.Random Verif.Lwe

section
variable {R : Type} [CommRing R]

/-- C48. Discarding addition of vectors: it is accepted exactly when the dimensions and the numbers of
ciphertexts agree; then every output ciphertext is the word-wise sum, and decrypts to the sum under
every key, whatever the output contained. -/
theorem C48_discard_add (out a b : LweVec R) (n m na ma nb mb : Nat)
    (ho : out.Shape n m) (ha : a.Shape na ma) (hb : b.Shape nb mb) :
    (n = na ∧ n = nb ∧ m = ma ∧ m = mb →
      ∃ r, vecDiscardAdd out a b = .ok r ∧ r.Shape n m ∧
        ∀ i, i < m → r.get i = List.zipWith (· + ·) (a.get i) (b.get i) ∧
          ∀ s : List R, s.length = n →
            decryptLwe s (r.get i) = some (phase s (a.get i) + phase s (b.get i))) ∧
    (¬ (n = na ∧ n = nb) → vecDiscardAdd out a b = .err .lweDimensionMismatch) ∧
    (n = na ∧ n = nb → ¬ (m = ma ∧ m = mb) →
      vecDiscardAdd out a b = .err .ciphertextCountMismatch) := by
  refine ⟨?_, ?_, ?_⟩
  · rintro ⟨rfl, rfl, rfl, rfl⟩
    rw [vecDiscardAdd, ho.dim, ha.dim, hb.dim, ho.count, ha.count, hb.count, if_neg (by simp),
      if_neg (by simp), ho.cts, ha.cts, hb.cts, zip_map_range,
      forZip_map _ (fun _ p => List.zipWith (· + ·) p.1 p.2)]
    · obtain ⟨r, h1, h2, h3⟩ := store_spec (ε := VecErr) ho
        (fun i => List.zipWith (· + ·) (a.get i) (b.get i)) (by
          intro i hi
          simp [ha.get_length hi, hb.get_length hi])
      refine ⟨r, h1, h2, fun i hi => ⟨h3 i hi, fun s hs => ?_⟩⟩
      have fa : Fits s (a.get i) := by rw [Fits, ha.get_length hi, hs]
      have fb : Fits s (b.get i) := by rw [Fits, hb.get_length hi, hs]
      have e : updateWithAdd (a.get i) (b.get i) = List.zipWith (· + ·) (a.get i) (b.get i) :=
        zipUpdate_eq_zipWith _ _ _ (by rw [fa, fb])
      have fr : Fits s (updateWithAdd (a.get i) (b.get i)) := fits_zipUpdate _ fa
      rw [h3 i hi, ← e, decryptLwe_eq fr, phase_add fa fb]
    · intro i hi
      rw [fillWithCopy, if_pos (by rw [ho.get_length hi, ha.get_length hi])]
      simp only [Option.map_some]
      congr 1
      exact zipUpdate_eq_zipWith _ _ _ (by rw [ha.get_length hi, hb.get_length hi])
  · intro h
    rw [vecDiscardAdd, ho.dim, ha.dim, hb.dim, if_pos (by tauto)]
  · intro h h'
    rw [vecDiscardAdd, ho.dim, ha.dim, hb.dim, ho.count, ha.count, hb.count, if_neg (by tauto),
      if_pos (by tauto)]

/-- C48. Discarding subtraction of vectors. -/
theorem C48_discard_sub (out a b : LweVec R) (n m na ma nb mb : Nat)
    (ho : out.Shape n m) (ha : a.Shape na ma) (hb : b.Shape nb mb) :
    (n = na ∧ n = nb ∧ m = ma ∧ m = mb →
      ∃ r, vecDiscardSub out a b = .ok r ∧ r.Shape n m ∧
        ∀ i, i < m → r.get i = List.zipWith (· - ·) (a.get i) (b.get i) ∧
          ∀ s : List R, s.length = n →
            decryptLwe s (r.get i) = some (phase s (a.get i) - phase s (b.get i))) ∧
    (¬ (n = na ∧ n = nb) → vecDiscardSub out a b = .err .lweDimensionMismatch) ∧
    (n = na ∧ n = nb → ¬ (m = ma ∧ m = mb) →
      vecDiscardSub out a b = .err .ciphertextCountMismatch) := by
  refine ⟨?_, ?_, ?_⟩
  · rintro ⟨rfl, rfl, rfl, rfl⟩
    rw [vecDiscardSub, ho.dim, ha.dim, hb.dim, ho.count, ha.count, hb.count, if_neg (by simp),
      if_neg (by simp), ho.cts, ha.cts, hb.cts, zip_map_range,
      forZip_map _ (fun _ p => List.zipWith (· - ·) p.1 p.2)]
    · obtain ⟨r, h1, h2, h3⟩ := store_spec (ε := VecErr) ho
        (fun i => List.zipWith (· - ·) (a.get i) (b.get i)) (by
          intro i hi
          simp [ha.get_length hi, hb.get_length hi])
      refine ⟨r, h1, h2, fun i hi => ⟨h3 i hi, fun s hs => ?_⟩⟩
      have fa : Fits s (a.get i) := by rw [Fits, ha.get_length hi, hs]
      have fb : Fits s (b.get i) := by rw [Fits, hb.get_length hi, hs]
      have e : updateWithSub (a.get i) (b.get i) = List.zipWith (· - ·) (a.get i) (b.get i) :=
        zipUpdate_eq_zipWith _ _ _ (by rw [fa, fb])
      have fr : Fits s (updateWithSub (a.get i) (b.get i)) := fits_zipUpdate _ fa
      rw [h3 i hi, ← e, decryptLwe_eq fr, phase_sub fa fb]
    · intro i hi
      rw [fillWithCopy, if_pos (by rw [ho.get_length hi, ha.get_length hi])]
      simp only [Option.map_some]
      congr 1
      exact zipUpdate_eq_zipWith _ _ _ (by rw [ha.get_length hi, hb.get_length hi])
  · intro h
    rw [vecDiscardSub, ho.dim, ha.dim, hb.dim, if_pos (by tauto)]
  · intro h h'
    rw [vecDiscardSub, ho.dim, ha.dim, hb.dim, ho.count, ha.count, hb.count, if_neg (by tauto),
      if_pos (by tauto)]

/-- C48. Fusing addition of vectors. -/
theorem C48_fuse_add (out a : LweVec R) (n m na ma : Nat) (ho : out.Shape n m) (ha : a.Shape na ma) :
    (n = na ∧ m = ma →
      ∃ r, vecFuseAdd out a = .ok r ∧ r.Shape n m ∧
        ∀ i, i < m → r.get i = List.zipWith (· + ·) (out.get i) (a.get i) ∧
          ∀ s : List R, s.length = n →
            decryptLwe s (r.get i) = some (phase s (out.get i) + phase s (a.get i))) ∧
    (n ≠ na → vecFuseAdd out a = .err .lweDimensionMismatch) ∧
    (n = na → m ≠ ma → vecFuseAdd out a = .err .ciphertextCountMismatch) := by
  refine ⟨?_, ?_, ?_⟩
  · rintro ⟨rfl, rfl⟩
    rw [vecFuseAdd, ho.dim, ha.dim, ho.count, ha.count, if_neg (by simp),
      if_neg (by simp), ho.cts, ha.cts, forZip_map _ (fun o p => List.zipWith (· + ·) o p)]
    · obtain ⟨r, h1, h2, h3⟩ := store_spec (ε := VecErr) ho
        (fun i => List.zipWith (· + ·) (out.get i) (a.get i)) (by
          intro i hi
          simp [ha.get_length hi, ho.get_length hi])
      refine ⟨r, h1, h2, fun i hi => ⟨h3 i hi, fun s hs => ?_⟩⟩
      have fa : Fits s (a.get i) := by rw [Fits, ha.get_length hi, hs]
      have fo : Fits s (out.get i) := by rw [Fits, ho.get_length hi, hs]
      have e : updateWithAdd (out.get i) (a.get i) = List.zipWith (· + ·) (out.get i) (a.get i) :=
        zipUpdate_eq_zipWith _ _ _ (by rw [fa, fo])
      have fr : Fits s (updateWithAdd (out.get i) (a.get i)) := fits_zipUpdate _ fo
      rw [h3 i hi, ← e, decryptLwe_eq fr, phase_add fo fa]
    · intro i hi
      congr 1
      exact zipUpdate_eq_zipWith _ _ _ (by rw [ho.get_length hi, ha.get_length hi])
  · intro h
    rw [vecFuseAdd, ho.dim, ha.dim, if_pos (by tauto)]
  · intro h h'
    rw [vecFuseAdd, ho.dim, ha.dim, ho.count, ha.count, if_neg (by tauto), if_pos (by tauto)]

/-- C48. Fusing subtraction of vectors. -/
theorem C48_fuse_sub (out a : LweVec R) (n m na ma : Nat) (ho : out.Shape n m) (ha : a.Shape na ma) :
    (n = na ∧ m = ma →
      ∃ r, vecFuseSub out a = .ok r ∧ r.Shape n m ∧
        ∀ i, i < m → r.get i = List.zipWith (· - ·) (out.get i) (a.get i) ∧
          ∀ s : List R, s.length = n →
            decryptLwe s (r.get i) = some (phase s (out.get i) - phase s (a.get i))) ∧
    (n ≠ na → vecFuseSub out a = .err .lweDimensionMismatch) ∧
    (n = na → m ≠ ma → vecFuseSub out a = .err .ciphertextCountMismatch) := by
  refine ⟨?_, ?_, ?_⟩
  · rintro ⟨rfl, rfl⟩
    rw [vecFuseSub, ho.dim, ha.dim, ho.count, ha.count, if_neg (by simp),
      if_neg (by simp), ho.cts, ha.cts, forZip_map _ (fun o p => List.zipWith (· - ·) o p)]
    · obtain ⟨r, h1, h2, h3⟩ := store_spec (ε := VecErr) ho
        (fun i => List.zipWith (· - ·) (out.get i) (a.get i)) (by
          intro i hi
          simp [ha.get_length hi, ho.get_length hi])
      refine ⟨r, h1, h2, fun i hi => ⟨h3 i hi, fun s hs => ?_⟩⟩
      have fa : Fits s (a.get i) := by rw [Fits, ha.get_length hi, hs]
      have fo : Fits s (out.get i) := by rw [Fits, ho.get_length hi, hs]
      have e : updateWithSub (out.get i) (a.get i) = List.zipWith (· - ·) (out.get i) (a.get i) :=
        zipUpdate_eq_zipWith _ _ _ (by rw [fa, fo])
      have fr : Fits s (updateWithSub (out.get i) (a.get i)) := fits_zipUpdate _ fo
      rw [h3 i hi, ← e, decryptLwe_eq fr, phase_sub fo fa]
    · intro i hi
      congr 1
      exact zipUpdate_eq_zipWith _ _ _ (by rw [ho.get_length hi, ha.get_length hi])
  · intro h
    rw [vecFuseSub, ho.dim, ha.dim, if_pos (by tauto)]
  · intro h h'
    rw [vecFuseSub, ho.dim, ha.dim, ho.count, ha.count, if_neg (by tauto), if_pos (by tauto)]

/-- C48. Discarding addition of a vector of plaintexts: each plaintext is added to its ciphertext. -/
theorem C48_add_plaintext (out a : LweVec R) (ps : List R) (n m na ma : Nat) (ho : out.Shape n m)
    (ha : a.Shape na ma) :
    (n = na ∧ m = ma ∧ ma = ps.length →
      ∃ r, vecAddPlaintext out a ps = .ok r ∧ r.Shape n m ∧
        ∀ i, i < m → (r.get i).dropLast = (a.get i).dropLast ∧
          ∀ s : List R, s.length = n →
            decryptLwe s (r.get i) = some (phase s (a.get i) + ps.getD i 0)) ∧
    (n ≠ na → vecAddPlaintext out a ps = .err .lweDimensionMismatch) ∧
    (n = na → m ≠ ma → vecAddPlaintext out a ps = .err .ciphertextCountMismatch) ∧
    (n = na → m = ma → ma ≠ ps.length →
      vecAddPlaintext out a ps = .err .plaintextCountMismatch) := by
  refine ⟨?_, ?_, ?_, ?_⟩
  · rintro ⟨rfl, rfl, rfl⟩
    rw [vecAddPlaintext, ho.dim, ha.dim, ho.count, ha.count, if_neg (by simp),
      if_neg (by simp), if_neg (by simp), ho.cts, ha.cts, forZip_map _ (fun _ p => p)]
    · have key : ∀ i, i < ps.length → ∃ mask b, a.get i = mask ++ [b] ∧ mask.length = n := by
        intro i hi
        obtain ⟨mask, b, h1, h2⟩ := exists_split (s := List.replicate n (0 : R)) (ct := a.get i)
          (by rw [Fits, ha.get_length hi]; simp)
        exact ⟨mask, b, h1, by simpa using h2⟩
      have hp := map_getD_range ps
      have hz : forZip (fun o p => addToBody o p) ((List.range ps.length).map fun i => a.get i) ps =
          some ((List.range ps.length).map fun i =>
            (a.get i).dropLast ++ [(a.get i).getLastD 0 + ps.getD i 0]) := by
        conv => enter [1, 3]; rw [hp]
        rw [forZip_map _ (fun o p => o.dropLast ++ [o.getLastD 0 + p])]
        intro i hi
        obtain ⟨mask, b, h1, h2⟩ := key i hi
        simp [h1, addToBody]
      simp only [hz]
      obtain ⟨r, h1, h2, h3⟩ := store_spec (ε := VecErr) ho
        (fun i => (a.get i).dropLast ++ [(a.get i).getLastD 0 + ps.getD i 0]) (by
          intro i hi
          obtain ⟨mask, b, h1, h2⟩ := key i hi
          simp [h1, h2])
      refine ⟨r, h1, h2, fun i hi => ?_⟩
      obtain ⟨mask, b, e1, e2⟩ := key i hi
      rw [h3 i hi, e1]
      refine ⟨by simp, fun s hs => ?_⟩
      have e3 : (mask ++ [b]).dropLast ++ [(mask ++ [b]).getLastD 0 + ps.getD i 0] =
          mask ++ [b + ps.getD i 0] := by simp
      rw [e3, decryptLwe_eq (by simp [Fits, e2, hs]), phase_append _ _ _ (by rw [e2, hs]),
        phase_append _ _ _ (by rw [e2, hs])]
      congr 1
      ring
    · intro i hi
      rw [fillWithCopy, if_pos (by rw [ho.get_length hi, ha.get_length hi])]
  · intro h
    rw [vecAddPlaintext, ho.dim, ha.dim, if_pos (by tauto)]
  · intro h h'
    rw [vecAddPlaintext, ho.dim, ha.dim, ho.count, ha.count, if_neg (by tauto), if_pos (by tauto)]
  · intro h h' h''
    rw [vecAddPlaintext, ho.dim, ha.dim, ho.count, ha.count, if_neg (by tauto), if_neg (by tauto),
      if_pos (by tauto)]

/-- C48, partial: discarding multiplication by a vector of cleartexts, for an output with at most as many
ciphertexts as the input. Missing: a longer output, for which `C48_mul_cleartext_violated` shows that the
claim fails. -/
theorem C48_mul_cleartext_partial (out a : LweVec R) (cs : List R) (n m na ma : Nat)
    (ho : out.Shape n m) (ha : a.Shape na ma) :
    (n = na ∧ m ≤ ma ∧ ma = cs.length →
      ∃ r, vecMulCleartext out a cs = .ok r ∧ r.Shape n m ∧
        ∀ i, i < m → r.get i = (a.get i).map (· * cs.getD i 0) ∧
          ∀ s : List R, s.length = n →
            decryptLwe s (r.get i) = some (phase s (a.get i) * cs.getD i 0)) ∧
    (n ≠ na → vecMulCleartext out a cs = .err .lweDimensionMismatch) ∧
    (n = na → ma ≠ cs.length → vecMulCleartext out a cs = .err .cleartextCountMismatch) := by
  refine ⟨?_, ?_, ?_⟩
  · rintro ⟨rfl, hm, rfl⟩
    rw [vecMulCleartext, ho.dim, ha.dim, ha.count, if_neg (by simp), if_neg (by simp), ho.cts, ha.cts]
    have hc := map_getD_range cs
    have hz : mulCleartextLoop ((List.range m).map out.get) ((List.range cs.length).map a.get) cs =
        some ((List.range m).map fun i => fillWithScalarMul (out.get i) (a.get i) (cs.getD i 0)) := by
      conv => enter [1, 3]; rw [hc]
      exact mulLoop_map m cs.length hm _ _ _
    rw [hz]
    obtain ⟨r, h1, h2, h3⟩ := store_spec (ε := VecErr) ho
      (fun i => fillWithScalarMul (out.get i) (a.get i) (cs.getD i 0)) (by
        intro i hi
        rw [fillWithScalarMul, zipUpdate_length, ho.get_length hi])
    have e : ∀ i, i < m → fillWithScalarMul (out.get i) (a.get i) (cs.getD i 0) =
        (a.get i).map (· * cs.getD i 0) := by
      intro i hi
      have l1 := ho.get_length hi
      have l2 := ha.get_length (lt_of_lt_of_le hi hm)
      rw [fillWithScalarMul, zipUpdate_eq_zipWith _ _ _ (by rw [l1, l2])]
      apply List.ext_getElem
      · simp [l1, l2]
      · intro j _ _
        simp
    refine ⟨r, h1, h2, fun i hi => ?_⟩
    rw [h3 i hi, e i hi]
    refine ⟨rfl, fun s hs => ?_⟩
    have fa : Fits s (a.get i) := by rw [Fits, ha.get_length (lt_of_lt_of_le hi hm), hs]
    rw [decryptLwe_eq (by simpa [Fits] using fa), phase_map]
  · intro h
    rw [vecMulCleartext, ho.dim, ha.dim, if_pos (by tauto)]
  · intro h h'
    rw [vecMulCleartext, ho.dim, ha.dim, ha.count, if_neg (by tauto), if_pos (by tauto)]

end

/-- C48 fails for the multiplication by cleartexts: an output with more ciphertexts than the input is
accepted and its last ciphertexts keep their old content. -/
theorem C48_mul_cleartext_violated :
    ∃ (out a : LweVec (BitVec 64)) (cs : List (BitVec 64)) (r : LweVec (BitVec 64)),
      out.Shape 1 2 ∧ a.Shape 1 1 ∧ vecMulCleartext out a cs = .ok r ∧ r.get 1 = out.get 1 ∧
      r.get 1 = [7, 9] :=
  ⟨⟨2, [1, 2, 7, 9]⟩, ⟨2, [3, 5]⟩, [2], ⟨2, [6, 10, 7, 9]⟩, ⟨rfl, rfl⟩, ⟨rfl, rfl⟩, by decide, by decide, by decide⟩

/-! The hypotheses on concrete vectors. -/

example : (⟨3, [1, 2, 3, 4, 5, 6]⟩ : LweVec (BitVec 32)).Shape 2 2 := ⟨rfl, rfl⟩
example : vecDiscardAdd (⟨2, [0, 0, 9, 9]⟩ : LweVec (BitVec 32)) ⟨2, [1, 2, 3, 4]⟩ ⟨2, [10, 20, 30, 40]⟩ =
    .ok ⟨2, [11, 22, 33, 44]⟩ := by decide
example : vecDiscardSub (⟨2, [0, 0, 9, 9]⟩ : LweVec (BitVec 32)) ⟨2, [1, 2, 3, 4]⟩ ⟨2, [1, 1, 1, 1]⟩ =
    .ok ⟨2, [0, 1, 2, 3]⟩ := by decide
example : vecAddPlaintext (⟨2, [0, 0, 9, 9]⟩ : LweVec (BitVec 32)) ⟨2, [1, 2, 3, 4]⟩ [5, 6] =
    .ok ⟨2, [1, 7, 3, 10]⟩ := by decide
example : vecMulCleartext (⟨2, [0, 0, 9, 9]⟩ : LweVec (BitVec 32)) ⟨2, [1, 2, 3, 4]⟩ [5, 6] =
    .ok ⟨2, [5, 10, 18, 24]⟩ := by decide
example : vecFuseAdd (⟨2, [0, 0, 9, 9]⟩ : LweVec (BitVec 32)) ⟨2, [1, 2]⟩ =
    .err .ciphertextCountMismatch := by decide

end Verif.Engine
