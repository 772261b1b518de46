import Verif.Cuda.Lemmas
import Mathlib.Data.List.Nodup
/-
C69: a vector sent to the GPUs and read back is unchanged.

`A` is the number of GPUs of the machine, `size` the number of words of an element of the vector (the LWE
size; 1 for plaintexts and cleartexts), `n` the number of elements.
-/
namespace Verif.Cuda

variable {α : Type}

/-- C69, the part that holds. If the number of GPUs divides the number of elements, a vector sent to the
GPUs and read back is the same vector. Missing: the other numbers of elements, see the theorems
below. -/
theorem C69_roundtrip_partial (A size n : Nat) (zero : α) (xs : List α) (hA : 0 < A) (hz : 0 < size)
    (hn : 0 < n) (hx : xs.length = n * size) (hfit : n * size < 2 ^ 32) (hd : A ∣ n) :
    roundTrip A size zero xs = .ok (xs.map some) := by
  have hAn : A ≤ n := Nat.le_of_dvd hn hd
  have hm : min n A = A := by omega
  have h0 : n % A = 0 := Nat.mod_eq_zero_of_dvd hd
  have hspos : 0 < n / A := Nat.div_pos hAn hA
  have h := roundTrip_general A size n zero xs hA hz hx hfit hAn (by omega)
  rw [h, h0, Nat.zero_mul, List.take_zero, List.append_nil, List.take_of_length_le]
  rw [List.length_map, hx, ← Nat.mul_assoc]
  apply le_of_eq
  congr 1
  have := Nat.div_add_mod n A
  omega

/-- C69 is violated: with fewer elements than GPUs, the vector reaches the GPUs and can no longer be read
back: the conversion panics. -/
theorem C69_few_elements_violated (A size n : Nat) (zero : α) (xs : List α) (hz : 0 < size)
    (hn : 0 < n) (hx : xs.length = n * size) (hfit : n * size < 2 ^ 32) (hlt : n < A) :
    (∃ vecs, toGpus A size xs = .ok vecs) ∧ roundTrip A size zero xs = .panic := by
  have hm : min n A = n := by omega
  have h := toGpus_ok A size n xs (by omega) hz hn hx hfit
    (by rw [hm, Nat.mod_self, Nat.div_self hn]; exact Nat.one_pos)
  refine ⟨⟨_, h⟩, ?_⟩
  unfold roundTrip
  rw [h]
  simp only [Out.bind_ok, fromGpus]
  rw [hx, Nat.mul_div_cancel _ hz]
  exact discardFromGpus_panic A size n _ _ hlt (by omega)

/-- C69 is violated: when the remainder of the division by the number of GPUs is at least the quotient
(3 elements on 2 GPUs, 7 elements on 4 GPUs), the conversion to the GPUs panics. -/
theorem C69_large_remainder_violated (A size n : Nat) (xs : List α) (hA : 0 < A) (hz : 0 < size)
    (hx : xs.length = n * size) (hfit : n * size < 2 ^ 32) (hAn : A ≤ n) (hr : n / A ≤ n % A) :
    toGpus A size xs = .panic :=
  toGpus_panic A size n xs hA hz hx hfit hAn hr

/-- C69 is violated: when the remainder is positive and smaller than the quotient (5 elements on 2 GPUs),
the vector read back has the right length, and its last `n % A` elements are those that start the share
of the last GPU. -/
theorem C69_small_remainder_violated (A size n : Nat) (zero : α) (xs : List α) (hA : 0 < A)
    (hz : 0 < size) (hx : xs.length = n * size) (hfit : n * size < 2 ^ 32) (hAn : A ≤ n)
    (hr : n % A < n / A) :
    roundTrip A size zero xs =
      .ok ((xs.take (A * (n / A) * size) ++
        (xs.drop ((A - 1) * (n / A) * size)).take (n % A * size)).map some) := by
  rw [roundTrip_general A size n zero xs hA hz hx hfit hAn hr]
  simp only [List.map_append, List.map_take, List.map_drop, Nat.mul_assoc]

/-- C69, exactly when it holds: a vector of `n` pairwise different words comes back unchanged if and only
if the number of GPUs divides `n`. -/
theorem C69_roundtrip_iff (A size n : Nat) (zero : α) (xs : List α) (hA : 0 < A) (hz : 0 < size)
    (hn : 0 < n) (hx : xs.length = n * size) (hfit : n * size < 2 ^ 32) (hxs : xs.Nodup) :
    roundTrip A size zero xs = .ok (xs.map some) ↔ A ∣ n := by
  refine ⟨fun h => ?_, fun h => C69_roundtrip_partial A size n zero xs hA hz hn hx hfit h⟩
  by_contra hd
  by_cases hAn : A ≤ n
  · by_cases hr : n % A < n / A
    · rw [C69_small_remainder_violated A size n zero xs hA hz hx hfit hAn hr] at h
      have e := List.map_injective_iff.2 (Option.some_injective α) (Out.ok.inj h)
      have hdm := Nat.div_add_mod n A
      have hpos : 0 < n % A := Nat.pos_of_ne_zero fun h0 => hd (Nat.dvd_of_mod_eq_zero h0)
      set s := n / A
      set r := n % A
      -- the first word of the tail occurs twice
      have hb : A * s * size < xs.length := by
        rw [hx]; exact Nat.mul_lt_mul_of_pos_right (by omega) hz
      have ha : (A - 1) * s * size < A * s * size := by
        apply Nat.mul_lt_mul_of_pos_right _ hz
        exact Nat.mul_lt_mul_of_pos_right (by omega) (by omega)
      have e2 := congrArg (fun l => l[A * s * size]?) e
      rw [List.getElem?_append_right (by rw [List.length_take]; omega), List.length_take,
        Nat.min_eq_left (le_of_lt hb), Nat.sub_self, List.getElem?_take_of_lt (Nat.mul_pos hpos hz),
        List.getElem?_drop, Nat.add_zero, List.getElem?_eq_getElem (by omega),
        List.getElem?_eq_getElem hb] at e2
      have := (List.Nodup.getElem_inj_iff hxs).1 (Option.some.inj e2)
      omega
    · unfold roundTrip at h
      rw [C69_large_remainder_violated A size n xs hA hz hx hfit hAn (by omega)] at h
      cases h
  · rw [(C69_few_elements_violated A size n zero xs hz hn hx hfit (by omega)).2] at h
    cases h

/-- The hypotheses are met: 4 elements of 2 words on 2 GPUs come back; 3 elements on 2 GPUs panic on the
way out, 2 elements on 3 GPUs panic on the way back, and 5 elements on 2 GPUs come back with element 2 in
place of element 4. -/
example :
    roundTrip 2 2 0 [1, 2, 3, 4, 5, 6, 7, 8] =
      .ok [some 1, some 2, some 3, some 4, some 5, some 6, some 7, some 8] ∧
    roundTrip 2 1 0 [1, 2, 3] = .panic ∧
    roundTrip 3 1 0 [1, 2] = .panic ∧
    roundTrip 2 1 0 [1, 2, 3, 4, 5] = .ok [some 1, some 2, some 3, some 4, some 3] := by
  refine ⟨?_, ?_, ?_, ?_⟩ <;> decide +kernel

/-- C69 is violated for an empty vector: the number of active GPUs is zero and the conversion divides by
it. -/
theorem C69_empty_violated (A size : Nat) : toGpus A size ([] : List α) = .panic := by
  unfold toGpus
  simp [activeGpus_eq, samplesOnGpu]

/-- C69 is violated for large vectors: the number of words is truncated to 32 bits by the allocation and
not by the copy. On one GPU every vector of at least `2^32` words is copied past the end of its
allocation. -/
theorem C69_large_vector_violated (size n : Nat) (xs : List α) (hz : 0 < size)
    (hx : xs.length = n * size) (hbig : 2 ^ 32 ≤ n * size) : toGpus 1 size xs = .overrun := by
  have hn : 0 < n := by
    rcases Nat.eq_zero_or_pos n with h | h
    · rw [h, Nat.zero_mul] at hbig; omega
    · exact h
  have hc : xs.length / size = n := by rw [hx, Nat.mul_div_cancel _ hz]
  have h1 : min n 1 = 1 := by omega
  unfold toGpus
  simp only [hc, activeGpus_eq, samplesOnGpu, h1]
  rw [if_neg (by omega)]
  simp only [Out.bind_ok, Nat.div_one, Nat.mod_one, ite_self, Nat.add_zero]
  rw [if_neg (Nat.mul_ne_zero (by omega) (by omega))]
  have hce : chunksExact (n * size) xs = [xs] := by
    unfold chunksExact
    rw [hx, Nat.div_self (Nat.mul_pos hn hz)]
    simp [block, List.range_succ, ← hx]
  have hre : chunksRemainder (n * size) xs = [] := by
    unfold chunksRemainder
    rw [hx, Nat.div_self (Nat.mul_pos hn hz), Nat.one_mul, ← hx, List.drop_length]
  rw [hce, hre, sendChunks, if_neg (by omega)]
  simp only [Nat.sub_self, if_true, List.append_nil]
  rw [copy_malloc_overrun xs (by rw [hx]; exact hbig)]
  rfl

/-- Such vectors exist: a vector of `2^32` zeros is copied past the end of an allocation of 0 words. -/
example : toGpus 1 1 (List.replicate (2 ^ 32) 0) = .overrun :=
  C69_large_vector_violated 1 (2 ^ 32) _ (by norm_num) (by rw [List.length_replicate, Nat.mul_one])
    (by norm_num)

/-- C69 for the containers that are copied whole to every GPU (single ciphertexts, GLWE vectors, keyswitch
keys): they come back unchanged from any number of GPUs. -/
theorem C69_broadcast (A : Nat) (xs : List α) (hA : 0 < A) (hfit : xs.length < 2 ^ 32) :
    ((broadcast A xs).bind fun vecs => fromFirst xs.length vecs) = .ok (xs.map some) ∧
    ∃ vecs, broadcast A xs = .ok vecs ∧ vecs.length = A ∧ ∀ v ∈ vecs, v = xs.map some := by
  rw [broadcast_ok A xs hfit]
  constructor
  · obtain ⟨B, rfl⟩ := Nat.exists_eq_succ_of_ne_zero (by omega : A ≠ 0)
    simp [fromFirst, copyToCpu, List.replicate_succ]
  · exact ⟨_, rfl, List.length_replicate, fun v hv => List.eq_of_mem_replicate hv⟩

example : ((broadcast 3 [7, 8]).bind fun vecs => fromFirst 2 vecs) = .ok [some 7, some 8] := by decide +kernel

/-- C69, the part of the memory check that holds: with at least as many elements as GPUs, a vector that
passes the check and reaches the GPUs needs no more than the free memory of each. -/
theorem C69_memory_check_partial (A size n bytes : Nat) (free : Nat → Nat) (xs : List α)
    (vecs : List (DVec α)) (hA : 0 < A) (hz : 0 < size) (hx : xs.length = n * size)
    (hfit : n * size < 2 ^ 32) (hAn : A ≤ n)
    (hc : memoryCheck A size n bytes free = .ok true) (hv : toGpus A size xs = .ok vecs) :
    ∀ i v, vecs[i]? = some v → v.length * bytes ≤ free i := by
  by_cases hr : n / A ≤ n % A
  · rw [toGpus_panic A size n xs hA hz hx hfit hAn hr] at hv; cases hv
  have hm : min n A = A := by omega
  rw [toGpus_ok A size n xs hA hz (by omega) hx hfit (by rw [hm]; omega), hm] at hv
  cases hv
  intro i v hiv
  rw [List.getElem?_map, layout, List.getElem?_map] at hiv
  by_cases hi : i < A
  · rw [List.getElem?_range hi] at hiv
    simp only [Option.map_some, Option.some.injEq] at hiv
    subst hiv
    have h1 := (memoryCheck_ok A size n bytes free hA).1 hc i (by omega)
    refine le_trans (le_of_eq ?_) h1
    congr 1
    rw [List.length_map]
    have hdm := Nat.div_add_mod n A
    have hle : A * (n / A) * size ≤ n * size := Nat.mul_le_mul_right _ (by omega)
    split
    · next h =>
      rw [List.length_drop, hx, ← Nat.mul_assoc, ← Nat.sub_mul]
      congr 1
      have : A * (n / A) = i * (n / A) + n / A := by
        conv_lhs => rw [show A = i + 1 from by omega]
        rw [Nat.add_mul, Nat.one_mul, show i + 1 = A from by omega]
      omega
    · next h =>
      rw [block_length, Nat.add_zero]
      rw [hx, ← Nat.mul_assoc]
      refine le_trans (Nat.mul_le_mul_right _ ?_) hle
      exact Nat.mul_le_mul_right _ (by omega)
  · rw [List.getElem?_eq_none (by rw [List.length_range]; omega)] at hiv
    cases hiv

example : memoryCheck 2 3 5 8 (fun _ => 72) = .ok true ∧ memoryCheck 2 3 5 8 (fun _ => 71) = .ok false := by
  decide +kernel

/-- C69 is violated by the memory check: with fewer elements than GPUs it passes whatever the memory of
the GPUs, even if they have none, and the conversion allocates one element on each of `n` GPUs. -/
theorem C69_memory_check_violated (A size n bytes : Nat) (free : Nat → Nat) (xs : List α)
    (hz : 0 < size) (hn : 0 < n) (hx : xs.length = n * size) (hfit : n * size < 2 ^ 32) (hlt : n < A) :
    memoryCheck A size n bytes free = .ok true ∧
    ∃ vecs, toGpus A size xs = .ok vecs ∧ vecs.length = n ∧ ∀ v ∈ vecs, v.length = size := by
  constructor
  · rw [memoryCheck_ok A size n bytes free (by omega)]
    intro i hi
    rw [if_neg (by omega), Nat.div_eq_of_lt hlt]
    simp
  · have hm : min n A = n := by omega
    refine ⟨_, toGpus_ok A size n xs (by omega) hz hn hx hfit
      (by rw [hm, Nat.mod_self, Nat.div_self hn]; exact Nat.one_pos), ?_, ?_⟩
    · rw [List.length_map, layout_length, hm]
    · intro v hv
      rw [hm, Nat.div_self hn, Nat.one_mul] at hv
      simp only [layout, List.map_map, List.mem_map, List.mem_range, Function.comp] at hv
      obtain ⟨i, hi, rfl⟩ := hv
      rw [List.length_map]
      split
      · next h =>
        rw [List.length_drop, hx, ← Nat.sub_mul, show n - i = 1 from by omega, Nat.one_mul]
      · rw [block_length]
        rw [hx]; exact Nat.mul_le_mul_right _ (by omega)

end Verif.Cuda
