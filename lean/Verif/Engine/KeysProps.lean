import Verif.Engine.Keys
/-
C39, C41, C49.
-/
set_option linter.unusedSectionVars false
namespace Verif.Engine
open Verif.Csprng (Build)

section
variable {R : Type} [CommRing R]

/-- C39. From GLWE to LWE and back with the same polynomial size gives the key back, for every GLWE key
of dimension `k` and polynomial size `N ≥ 2`. -/
theorem C39_glwe_round_trip (key : GlweKey R) (k : Nat) (hN : 2 ≤ key.polySize)
    (hk : key.data.length = k * key.polySize) :
    (glweToLweKey key).length = k * key.polySize ∧
    lweToGlweKey (glweToLweKey key) key.polySize = .ok key := by
  refine ⟨hk, ?_⟩
  rw [lweToGlweKey, glweToLweKey, Glwe.intoLweSecretKey, if_neg (by omega), if_neg (by omega),
    if_neg (by simp [hk])]

/-- C39. From LWE to GLWE: accepted exactly when the polynomial size is at least 2 and divides the
dimension, each other case with its own error; the result has dimension `n / N`, its `i`-th polynomial
has the coefficients `i N, …, (i + 1) N - 1` of the LWE key, and going back gives the LWE key. -/
theorem C39_lwe_round_trip (key : List R) (N : Nat) :
    (2 ≤ N ∧ N ∣ key.length →
      ∃ g, lweToGlweKey key N = .ok g ∧ g.polySize = N ∧ g.dim = key.length / N ∧
        (∀ i j, j < N → (block N g.data i).getD j 0 = key.getD (i * N + j) 0) ∧
        glweToLweKey g = key) ∧
    (N = 0 → lweToGlweKey key N = .err .nullPolynomialSize) ∧
    (N = 1 → lweToGlweKey key N = .err .sizeOnePolynomial) ∧
    (2 ≤ N → ¬ N ∣ key.length → lweToGlweKey key N = .err .incompatibleLweDimension) := by
  refine ⟨?_, ?_, ?_, ?_⟩
  · rintro ⟨hN, hd⟩
    refine ⟨⟨N, key⟩, ?_, rfl, rfl, ?_, rfl⟩
    · rw [lweToGlweKey, if_neg (by omega), if_neg (by omega),
        if_neg (by simpa using Nat.mod_eq_zero_of_dvd hd)]
    · intro i j hj
      exact block_getD N key i j 0 hj
  · rintro rfl
    rw [lweToGlweKey, if_pos rfl]
  · rintro rfl
    rw [lweToGlweKey, if_neg (by omega), if_pos rfl]
  · intro hN hd
    rw [lweToGlweKey, if_neg (by omega), if_neg (by omega), if_pos]
    intro h
    exact hd (Nat.dvd_of_mod_eq_zero h)

/-- C39. The transformed key is the one that decrypts the extracted samples: extracting coefficient `n`
of a GLWE ciphertext and decrypting with the LWE key obtained from the GLWE key gives coefficient `n` of
the GLWE decryption. -/
theorem C39_decrypts_samples (key : GlweKey R) (k : Nat) (hN : 0 < key.polySize)
    (hk : key.data.length = k * key.polySize) (out ct lwe : List R)
    (hc : ct.length = (k + 1) * key.polySize) (ho : out.length = key.polySize)
    (hl : lwe.length = k * key.polySize + 1) (n : Nat) (hn : n < key.polySize) :
    ∃ r, Glwe.sampleExtract key.polySize ct lwe n = some r ∧
      Lwe.decryptLwe (glweToLweKey key) r =
        some ((Glwe.decryptGlwe key.polySize key.data out ct).getD n 0) := by
  obtain ⟨r, h1, h2, h3⟩ := Glwe.sampleExtract_spec key.polySize k hN key.data out ct lwe hk hc ho hl n hn
  refine ⟨r, h1, ?_⟩
  rw [glweToLweKey, Glwe.intoLweSecretKey, Lwe.decryptLwe_eq h2, h3]

end

example : lweToGlweKey [1, 0, 1, 1, 0, 1] 3 = .ok ⟨3, [1, 0, 1, 1, 0, 1]⟩ := by decide
example : lweToGlweKey [1, 0, 1, 1, 0, 1] 4 = .err .incompatibleLweDimension := by decide
example : (⟨3, [1, 0, 1, 1, 0, 1]⟩ : GlweKey Nat).dim = 2 := by decide

/-! ### C41 -/

/-- What the documentation promises: a range `(a, b)` of a vector of `count` ciphertexts is acceptable
when it is ordered and inside the vector. -/
def GoodRange (count : Nat) (r : Range) : Prop := r.fst ≤ r.snd ∧ r.snd < count

/-- C41 fails: every range of at least two elements inside the vector is rejected as unordered. -/
theorem C41_violated (count : Nat) (r : Range) (h : r.fst < r.snd) :
    checkVecLoad count r = .err .unorderedInputRange := by
  rw [checkVecLoad, if_pos]
  simp [Range.isOrdered, h]

/-- … such as the range `(0, 1)` of a vector of two ciphertexts; and the reversed range `(5, 0)`, which is
neither ordered nor inside the vector, is accepted. -/
theorem C41_violated_witness :
    GoodRange 2 ⟨0, 1⟩ ∧ checkVecLoad 2 ⟨0, 1⟩ = .err .unorderedInputRange ∧
    ¬ GoodRange 2 ⟨5, 0⟩ ∧ checkVecLoad 2 ⟨5, 0⟩ = .ok () := by
  refine ⟨⟨by decide, by decide⟩, by decide, ?_, by decide⟩
  rintro ⟨h, _⟩
  revert h
  decide

/-- C41, partial: what the check accepts. Among the good ranges these are the ranges of one element
only. -/
theorem C41_loading_partial (count : Nat) (r : Range) :
    (checkVecLoad count r = .ok () ↔ r.snd ≤ r.fst ∧ r.snd < count) ∧
    (GoodRange count r → (checkVecLoad count r = .ok () ↔ r.fst = r.snd)) ∧
    (r.snd ≤ r.fst → count ≤ r.snd → checkVecLoad count r = .err .outOfVectorInputRange) := by
  have main : checkVecLoad count r = .ok () ↔ r.snd ≤ r.fst ∧ r.snd < count := by
    rw [checkVecLoad]
    by_cases h : r.snd ≤ r.fst
    · by_cases h' : r.snd < count
      · simp [Range.isOrdered, h, h', Nat.not_le.2 h']
      · simp [Range.isOrdered, h, h', Nat.le_of_not_lt h']
    · simp [Range.isOrdered, h]
  refine ⟨main, ?_, ?_⟩
  · rintro ⟨h1, h2⟩
    rw [main]
    omega
  · intro h h'
    rw [checkVecLoad, if_neg (by simp [Range.isOrdered, h]), if_pos h']

/-- C41 for the discarding variant, on a pair of good ranges of the same size between vectors of the same
dimension: accepted only when both have one element; larger ones are rejected as unordered. -/
theorem C41_discarding_loading_partial (bld : Build) (d outCount inCount : Nat) (o i : Range)
    (ho : GoodRange outCount o) (hi : GoodRange inCount i) :
    (o.fst = o.snd → i.fst = i.snd →
      checkVecDiscardLoad bld d outCount d inCount o i = .ok ()) ∧
    (i.fst ≠ i.snd →
      checkVecDiscardLoad bld d outCount d inCount o i = .err .unorderedInputRange) ∧
    (i.fst = i.snd → o.fst ≠ o.snd →
      checkVecDiscardLoad bld d outCount d inCount o i = .err .unorderedOutputRange) := by
  obtain ⟨ho1, ho2⟩ := ho
  obtain ⟨hi1, hi2⟩ := hi
  refine ⟨?_, ?_, ?_⟩
  · intro h1 h2
    rw [checkVecDiscardLoad, if_neg (by simp), if_neg (by simp [Range.isOrdered, h2]),
      if_neg (by simp [Range.isOrdered, h1]), if_neg (by omega), if_neg (by omega)]
    simp [usizeSub, h1, h2]
  · intro h
    rw [checkVecDiscardLoad, if_neg (by simp), if_pos]
    simp only [Range.isOrdered, decide_eq_false_iff_not]
    omega
  · intro h1 h2
    rw [checkVecDiscardLoad, if_neg (by simp), if_neg (by simp [Range.isOrdered, h1]), if_pos]
    simp only [Range.isOrdered, decide_eq_false_iff_not]
    omega

/-- C41 fails: reversed ranges pass the order check and then the computation of the range size overflows:
a panic in debug builds; in release builds two reversed ranges of the same length are accepted. -/
theorem C41_reversed (d outCount inCount : Nat) (o i : Range) (ho : o.snd < o.fst) (hi : i.snd < i.fst)
    (ho' : o.snd < outCount) (hi' : i.snd < inCount) (hs : o.fst - o.snd = i.fst - i.snd)
    (hb : i.fst < 2 ^ 64) (hb' : o.fst < 2 ^ 64) :
    checkVecDiscardLoad .debug d outCount d inCount o i = .panic ∧
    checkVecDiscardLoad .release d outCount d inCount o i = .ok () := by
  have e : ∀ bld, checkVecDiscardLoad bld d outCount d inCount o i =
      match usizeSub bld i.snd i.fst, usizeSub bld o.snd o.fst with
      | some si, some so => if si ≠ so then .err .rangeSizeMismatch else .ok ()
      | _, _ => .panic := by
    intro bld
    rw [checkVecDiscardLoad, if_neg (by simp), if_neg (by simp [Range.isOrdered]; omega),
      if_neg (by simp [Range.isOrdered]; omega), if_neg (by omega), if_neg (by omega)]
    rfl
  refine ⟨?_, ?_⟩
  · rw [e]
    simp [usizeSub, show ¬ i.fst ≤ i.snd by omega]
  · rw [e]
    have h1 : usizeSub .release i.snd i.fst = some (2 ^ 64 + i.snd - i.fst) := by
      simp only [usizeSub, if_neg (show ¬ i.fst ≤ i.snd by omega)]
    have h2 : usizeSub .release o.snd o.fst = some (2 ^ 64 + o.snd - o.fst) := by
      simp only [usizeSub, if_neg (show ¬ o.fst ≤ o.snd by omega)]
    rw [h1, h2]
    simp only
    rw [if_neg]
    simp only [ne_eq, not_not]
    omega

/-- The single-element loads and stores check the index and the dimension as documented. -/
theorem C41_single_element (ctDim vecDim count i : Nat) :
    (checkLoad count i = .ok () ↔ i < count) ∧
    (checkLoad count i ≠ .ok () → checkLoad count i = .err .indexTooLarge) ∧
    (checkDiscardLoad ctDim vecDim count i = .ok () ↔ ctDim = vecDim ∧ i < count) ∧
    (ctDim ≠ vecDim → checkDiscardLoad ctDim vecDim count i = .err .lweDimensionMismatch) ∧
    (ctDim = vecDim → count ≤ i → checkDiscardLoad ctDim vecDim count i = .err .indexTooLarge) ∧
    checkDiscardStore vecDim count ctDim i = checkDiscardLoad ctDim vecDim count i := by
  by_cases h : i < count <;> by_cases h' : ctDim = vecDim <;>
    simp [checkLoad, checkDiscardLoad, checkDiscardStore, h, h', eq_comm, Nat.not_le.2,
      Nat.le_of_not_lt, Ne.symm]

/-! ### C49 -/

/-- The value of element `i` after a history of writes, read as an array: the last value written at `i`,
or else the initial one. -/
def lastWrite {R : Type} (i : Nat) (init : List R) : List (Nat × List R) → List R
  | [] => init
  | (n, p) :: h => lastWrite i (if n = i then p else init) h

section
variable {R : Type}

theorem getPoly_eq_block (N : Nat) (l : List R) (n : Nat) (h : (n + 1) * N ≤ l.length) :
    getPoly N l n = some (block N l n) := by
  rw [getPoly, if_pos h, block, List.drop_take]
  congr 2
  rw [Nat.succ_mul]
  omega

/-- C49. One write: it succeeds exactly when the element exists and the written polynomial has the size of
the elements; then reading gives the written polynomial at its index and the old content everywhere else,
and the length does not change. -/
theorem C49_read_after_write (N m : Nat) (l : List R) (hl : l.length = m * N) (j : Nat) (p : List R) :
    (j < m ∧ p.length = N → ∃ l', setPoly N l j p = some l' ∧ l'.length = m * N ∧
      ∀ i, i < m → getPoly N l' i = if i = j then some p else getPoly N l i) ∧
    (0 < N → ¬ (j < m ∧ p.length = N) → setPoly N l j p = none) ∧
    (0 < N → ∀ i, m ≤ i → getPoly N l i = none) := by
  have le : ∀ i, i < m → (i + 1) * N ≤ m * N := fun i hi => Nat.mul_le_mul_right _ hi
  have gt : 0 < N → ∀ i, m ≤ i → ¬ (i + 1) * N ≤ m * N := by
    intro hN i hi h
    have := Nat.le_of_mul_le_mul_right h hN
    omega
  refine ⟨?_, ?_, ?_⟩
  · rintro ⟨hj, hp⟩
    have hjl : (j + 1) * N ≤ l.length := by rw [hl]; exact le j hj
    have e1 : (j + 1) * N = j * N + N := Nat.succ_mul j N
    have hlen : (l.take (j * N) ++ p ++ l.drop ((j + 1) * N)).length = m * N := by
      simp only [List.length_append, List.length_take, List.length_drop]
      omega
    refine ⟨_, by rw [setPoly, if_pos hjl, if_pos hp], hlen, ?_⟩
    intro i hi
    rw [getPoly_eq_block _ _ _ (by rw [hlen]; exact le i hi)]
    have hil : (i + 1) * N ≤ l.length := by rw [hl]; exact le i hi
    have e2 : (i + 1) * N = i * N + N := Nat.succ_mul i N
    rcases Nat.lt_trichotomy i j with h | h | h
    · rw [if_neg (by omega), getPoly_eq_block _ _ _ hil]
      have : (i + 1) * N ≤ j * N := Nat.mul_le_mul_right _ h
      congr 1
      rw [block, block, List.append_assoc, List.drop_append_of_le_length (by
        simp only [List.length_take]; omega), List.take_append_of_le_length (by
        simp only [List.length_drop, List.length_take]; omega), List.drop_take, List.take_take]
      congr 1
      omega
    · subst h
      rw [if_pos rfl]
      congr 1
      have ht : (l.take (i * N)).length = i * N := by
        simp only [List.length_take]; omega
      rw [block, List.append_assoc, List.drop_append, ht, Nat.sub_self,
        List.drop_eq_nil_of_le (by omega), List.nil_append, List.drop_zero, ← hp, List.take_left]
    · rw [if_neg (by omega), getPoly_eq_block _ _ _ hil]
      have : (j + 1) * N ≤ i * N := Nat.mul_le_mul_right _ h
      congr 1
      have ht : (l.take (j * N) ++ p).length = (j + 1) * N := by
        simp only [List.length_append, List.length_take]
        omega
      rw [block, block, List.drop_append, ht, List.drop_eq_nil_of_le (by omega), List.nil_append,
        List.drop_drop]
      congr 2
      omega
  · intro hN h
    rw [setPoly]
    by_cases hj : j < m
    · rw [if_pos (by rw [hl]; exact le j hj), if_neg]
      intro hp
      exact h ⟨hj, hp⟩
    · rw [if_neg (by rw [hl]; exact gt hN j (by omega))]
  · intro hN i hi
    rw [getPoly, if_neg (by rw [hl]; exact gt hN i hi)]

/-- C49. After any history of writes inside the list, reading any element gives the last value written
there, or the initial content if there was none. -/
theorem C49_history (N m : Nat) : ∀ (h : List (Nat × List R)) (l : List R) (_ : l.length = m * N)
    (_ : ∀ x ∈ h, x.1 < m ∧ x.2.length = N),
    ∃ l', setMany N l h = some l' ∧ l'.length = m * N ∧
      ∀ i, i < m → ∀ init, getPoly N l i = some init →
        getPoly N l' i = some (lastWrite i init h) := by
  intro h
  induction h with
  | nil => exact fun l hl _ => ⟨l, rfl, hl, fun i _ init hi => hi⟩
  | cons x h ih =>
    obtain ⟨n, p⟩ := x
    intro l hl hh
    obtain ⟨l1, h1, h2, h3⟩ := (C49_read_after_write N m l hl n p).1 (hh _ (List.mem_cons_self ..))
    obtain ⟨l2, g1, g2, g3⟩ := ih l1 h2 (fun x hx => hh x (List.mem_cons_of_mem _ hx))
    refine ⟨l2, by rw [setMany, h1]; exact g1, g2, ?_⟩
    intro i hi init hini
    rw [lastWrite]
    apply g3 i hi
    rw [h3 i hi]
    by_cases e : i = n
    · rw [if_pos e, if_pos e.symm]
    · rw [if_neg e, if_neg (Ne.symm e), hini]

/-- C49. Reading element `i` and taking element `i` of the iterator over the list agree. -/
theorem C49_iterator (N m : Nat) (hN : 0 < N) (l : List R) (hl : l.length = m * N) (i : Nat) :
    (chunks N l)[i]? = getPoly N l i := by
  rw [chunks_eq N hN m l hl]
  by_cases hi : i < m
  · rw [getPoly_eq_block _ _ _ (by rw [hl]; exact Nat.mul_le_mul_right _ hi)]
    simp [hi]
  · rw [(C49_read_after_write N m l hl 0 []).2.2 hN i (by omega)]
    simp [hi]

end

example : setMany 2 [1, 2, 3, 4, 5, 6] [(1, [7, 8]), (0, [9, 9]), (1, [0, 1])] =
    some [9, 9, 0, 1, 5, 6] := by decide
example : setPoly 2 [1, 2, 3, 4] 2 [7, 8] = none := by decide
example : getPoly 2 [1, 2, 3, 4] 1 = some [3, 4] := by decide

end Verif.Engine
