import Verif.Cuda.BitExtraction
import Verif.Cuda.CbsLemmas
/-
The buffers of the bit extraction of CUDA after each launch.
-/
namespace Verif.Cuda.Be
open Verif Verif.Poly Verif.Glwe Verif.Pbs Verif.Decomp Verif.Wop
open Verif.Cuda.Cbs

variable {w : Nat}

theorem first_length {α : Type} (mem : Nat → α) (len : Nat) : (first mem len).length = len := by simp [first]

theorem first_getElem? {α : Type} (mem : Nat → α) (len j : Nat) (hj : j < len) : (first mem len)[j]? = some (mem j) := by
  simp [first, hj]

theorem first_congr {α : Type} {f g : Nat → α} {len : Nat} (h : ∀ j, j < len → f j = g j) : first f len = first g len :=
  List.map_congr_left fun j hj => h j (List.mem_range.1 hj)

theorem first_overwrite (r : List (BitVec w)) (mem : Nat → BitVec w) : first (overwrite r mem) r.length = r := by
  apply List.ext_getElem (by rw [first_length])
  intro j h1 h2
  simp [first, overwrite, h2]

theorem block_of_lt {j k N : Nat} (hj : j < k * N) : j / N < k ∧ j % N < N ∧ j / N * N + j % N = j := by
  have hN : 0 < N := by
    rcases Nat.eq_zero_or_pos N with h | h
    · subst h; omega
    · exact h
  exact ⟨(Nat.div_lt_iff_lt_mul hN).2 hj, Nat.mod_lt _ hN, by rw [Nat.mul_comm]; exact Nat.div_add_mod _ _⟩

/-- The shifted ciphertext. -/
theorem shift_word (σ : Sched (BitVec w)) (hσ : σ.Fair) (N k opt : Nat) (hd : opt ∣ N) (hN : 0 < N) (hk : 0 < k)
    (v : BitVec w) (src mem : Nat → BitVec w) (q : Nat) (hq : q < k * N + 1) :
    store (σ (shiftWrites k N opt v src)) mem q = src q * v := by
  have hopt : 0 < opt := Nat.pos_of_dvd_of_pos hd hN
  have hth : 0 < N / opt := Nat.div_pos (Nat.le_of_dvd hN hd) hopt
  rw [store_sched σ hσ (fun q => src q * v), if_pos]
  · by_cases hb : q = k * N
    · refine List.mem_map.2 ⟨(k * N, src (k * N) * v), ?_, hb.symm⟩
      simp only [shiftWrites, List.mem_flatMap, List.mem_range, List.mem_append, List.mem_map]
      exact ⟨0, hk, 0, hth, .inr (by rw [if_pos ⟨rfl, rfl⟩, List.mem_singleton])⟩
    · obtain ⟨h1, h2, h3⟩ := block_of_lt (show q < k * N by omega)
      obtain ⟨tid, i, ht, hi, e⟩ := stride hd h2
      refine List.mem_map.2 ⟨(q / N * N + (tid + i * (N / opt)), src (q / N * N + (tid + i * (N / opt))) * v), ?_, ?_⟩
      · simp only [shiftWrites, List.mem_flatMap, List.mem_range, List.mem_append, List.mem_map]
        exact ⟨q / N, h1, tid, ht, .inl ⟨i, hi, rfl⟩⟩
      · simp only
        rw [← e]; exact h3
  · intro x hx
    simp only [shiftWrites, List.mem_flatMap, List.mem_range, List.mem_append, List.mem_map] at hx
    obtain ⟨y, hy, tid, ht, ⟨i, hi, rfl⟩ | h⟩ := hx
    · rfl
    · split at h
      · rw [List.mem_singleton] at h
        rw [h]
      · simp at h

/-- The output after the copy of a ciphertext. -/
theorem small_word (σ : Sched (BitVec w)) (hσ : σ.Fair) (size id : Nat) (src mem : Nat → BitVec w) (q : Nat) :
    store (σ (smallWrites size id src)) mem q =
      if id * size ≤ q ∧ q < id * size + size then src (q - id * size) else mem q := by
  have hval : ∀ x ∈ smallWrites size id src, x.2 = src (x.1 - id * size) ∧ id * size ≤ x.1 ∧ x.1 < id * size + size := by
    intro x hx
    simp only [smallWrites, List.mem_flatMap, List.mem_range, List.mem_append, List.mem_map] at hx
    obtain ⟨tid, ht, ⟨i, hi, rfl⟩ | h⟩ := hx
    · simp only
      exact ⟨by rw [Nat.add_sub_cancel_left], by omega, by omega⟩
    · split at h
      · rw [List.mem_singleton] at h
        subst h
        simp only
        exact ⟨by rw [Nat.add_sub_cancel_left], by omega, by omega⟩
      · simp at h
  rw [store_sched σ hσ (fun q => src (q - id * size)) _ _ fun x hx => (hval x hx).1]
  congr 1
  apply propext
  constructor
  · intro h
    obtain ⟨x, hx, rfl⟩ := List.mem_map.1 h
    exact (hval x hx).2
  · rintro ⟨h1, h2⟩
    obtain ⟨j, rfl⟩ : ∃ j, q = id * size + j := ⟨q - id * size, by omega⟩
    have e1 : j % 256 + j / 256 * 256 = j := by omega
    refine List.mem_map.2 ⟨(id * size + (j % 256 + j / 256 * 256), src (j % 256 + j / 256 * 256)), ?_, by rw [e1]⟩
    simp only [smallWrites, List.mem_flatMap, List.mem_range, List.mem_append, List.mem_map]
    refine ⟨j % 256, Nat.mod_lt _ (by omega), ?_⟩
    by_cases hc : j / 256 < size / 256
    · exact .inl ⟨j / 256, hc, rfl⟩
    · have : j / 256 = size / 256 := by omega
      right
      rw [if_pos (by omega), List.mem_singleton, this]

/-- The keyswitched ciphertext after the addition to its body. -/
theorem body_first (σ : Sched (BitVec w)) (hσ : σ.Fair) (n : Nat) (c : BitVec w) (mem : Nat → BitVec w) :
    first (store (σ (bodyWrites 1 n c mem)) mem) (n + 1) = addBody (first mem (n + 1)) c := by
  apply List.ext_getElem?
  intro j
  rw [addBody, List.getElem?_modify, first_length, Nat.add_sub_cancel]
  by_cases hj : j < n + 1
  · rw [first_getElem? _ _ _ hj, first_getElem? _ _ _ hj, store_sched σ hσ (fun q => mem q + c)]
    · by_cases h : n = j
      · subst h
        rw [if_pos (by simp [bodyWrites])]
        simp
      · rw [if_neg (by simp [bodyWrites]; omega)]
        simp [h]
    · intro x hx
      simp only [bodyWrites, List.mem_map, List.mem_range] at hx
      obtain ⟨y, _, rfl⟩ := hx
      rfl
  · rw [List.getElem?_eq_none (by rw [first_length]; omega), List.getElem?_eq_none (by rw [first_length]; omega)]
    rfl

theorem neg_shl (n : Nat) : (0#w - 1#w) <<< n = 0#w - 1#w <<< n := by
  rw [BV.shl_eq_mul, BV.shl_eq_mul]
  have : (0#w : BitVec w) = 0 := rfl
  rw [this]
  ring

/-- The table of the sign. -/
theorem fill_first (σ : Sched (BitVec w)) (hσ : σ.Fair) (N k opt : Nat) (hd : opt ∣ N) (v : BitVec w)
    (lut : Nat → BitVec w) (hz : ∀ q, q < k * N → lut q = 0#w) :
    (∀ q, q < k * N → store (σ (fillWrites N k opt v)) lut q = 0#w) ∧
    first (store (σ (fillWrites N k opt v)) lut) ((k + 1) * N) = List.replicate (k * N) 0#w ++ List.replicate N v := by
  have hG : (k + 1) * N = k * N + N := by ring
  have hw : ∀ q, store (σ (fillWrites N k opt v)) lut q = if k * N ≤ q ∧ q < k * N + N then v else lut q := by
    intro q
    rw [store_sched σ hσ fun _ => v]
    · congr 1
      apply propext
      constructor
      · intro h
        obtain ⟨x, hx, rfl⟩ := List.mem_map.1 h
        simp only [fillWrites, List.mem_flatMap, List.mem_range, List.mem_map] at hx
        obtain ⟨tid, ht, i, hi, rfl⟩ := hx
        have := stride_lt hd ht hi
        exact ⟨Nat.le_add_right _ _, by simp only; omega⟩
      · rintro ⟨h1, h2⟩
        obtain ⟨tid, i, ht, hi, e⟩ := stride (j := q - k * N) hd (by omega)
        refine List.mem_map.2 ⟨(k * N + (tid + i * (N / opt)), v), ?_, by simp only; omega⟩
        simp only [fillWrites, List.mem_flatMap, List.mem_range, List.mem_map]
        exact ⟨tid, ht, i, hi, rfl⟩
    · intro x hx
      simp only [fillWrites, List.mem_flatMap, List.mem_range, List.mem_map] at hx
      obtain ⟨tid, ht, i, hi, rfl⟩ := hx
      rfl
  refine ⟨fun q hq => by rw [hw, if_neg (by omega), hz q hq], ?_⟩
  apply List.ext_getElem?
  intro j
  by_cases hj : j < (k + 1) * N
  · rw [first_getElem? _ _ _ hj, hw]
    by_cases hm : j < k * N
    · rw [if_neg (by omega), hz j hm, List.getElem?_append_left (by simpa using hm)]
      simp [hm]
    · rw [if_pos (by omega), List.getElem?_append_right (by simpa using hm), List.getElem?_replicate,
        if_pos (by simp only [List.length_replicate]; omega)]
  · rw [List.getElem?_eq_none (by rw [first_length]; omega), List.getElem?_eq_none]
    simp only [List.length_append, List.length_replicate]; omega

/-- The state and the shifted ciphertext after the last kernel of an iteration. -/
theorem updates_word (σ : Sched (BitVec w)) (hσ : σ.Fair) (N k opt : Nat) (hd : opt ∣ N) (hN : 0 < N)
    (mask body mem : Nat → BitVec w) (q : Nat) (hq : q < k * N + 1) :
    store (σ (updates N k opt mask body)) mem q = if q = k * N then body q else mask q := by
  have hopt : 0 < opt := Nat.pos_of_dvd_of_pos hd hN
  have hth : 0 < N / opt := Nat.div_pos (Nat.le_of_dvd hN hd) hopt
  have hdk : k * opt ∣ k * N := Nat.mul_dvd_mul_left k hd
  have hqk : 0 < k → k * N / (k * opt) = N / opt := fun h => Nat.mul_div_mul_left _ _ h
  rw [store_sched σ hσ (fun q => if q = k * N then body q else mask q), if_pos]
  · by_cases hb : q = k * N
    · refine List.mem_map.2 ⟨(k * N, body (k * N)), ?_, hb.symm⟩
      simp only [updates, List.mem_flatMap, List.mem_range, List.mem_append, List.mem_map]
      exact ⟨0, hth, .inr (by rw [if_pos rfl, List.mem_singleton])⟩
    · have hk : 0 < k := by
        rcases Nat.eq_zero_or_pos k with h | h
        · subst h; omega
        · exact h
      obtain ⟨tid, i, ht, hi, e⟩ := stride (j := q) hdk (by omega)
      rw [hqk hk] at ht e
      refine List.mem_map.2 ⟨(tid + i * (N / opt), mask (tid + i * (N / opt))), ?_, e.symm⟩
      simp only [updates, List.mem_flatMap, List.mem_range, List.mem_append, List.mem_map]
      exact ⟨tid, ht, .inl ⟨i, hi, rfl⟩⟩
  · intro x hx
    simp only [updates, List.mem_flatMap, List.mem_range, List.mem_append, List.mem_map] at hx
    obtain ⟨tid, ht, ⟨i, hi, rfl⟩ | h⟩ := hx
    · have hk : 0 < k := by
        rcases Nat.eq_zero_or_pos k with h | h
        · subst h; omega
        · exact h
      have := stride_lt hdk (by rw [hqk hk]; exact ht) hi
      rw [hqk hk] at this
      simp only
      rw [if_neg (by omega)]
    · split at h
      · rw [List.mem_singleton] at h
        rw [h, if_pos rfl]
      · simp at h

/-- The lists of the two ciphertexts. -/
theorem updates_first (σ : Sched (BitVec w)) (hσ : σ.Fair) (N k opt : Nat) (hd : opt ∣ N) (hN : 0 < N)
    (state pbs mem mem' : Nat → BitVec w) (add mul : BitVec w) :
    first (store (σ (updates N k opt (fun j => state j - pbs j) fun j => state j - (pbs j + add))) mem) (k * N + 1) =
      zipUpdate (fun a x => a - x) (first state (k * N + 1)) (addBody (first pbs (k * N + 1)) add) ∧
    first (store (σ (updates N k opt (fun j => (state j - pbs j) * mul) fun j => (state j - (pbs j + add)) * mul)) mem')
      (k * N + 1) =
      (zipUpdate (fun a x => a - x) (first state (k * N + 1)) (addBody (first pbs (k * N + 1)) add)).map (· * mul) := by
  have hz : zipUpdate (fun a x => a - x) (first state (k * N + 1)) (addBody (first pbs (k * N + 1)) add) =
      first (fun j => if j = k * N then state j - (pbs j + add) else state j - pbs j) (k * N + 1) := by
    rw [zipUpdate_eq_zipWith _ _ _ (by rw [addBody, List.length_modify, first_length, first_length])]
    apply List.ext_getElem?
    intro j
    rw [List.getElem?_zipWith, addBody, List.getElem?_modify, first_length, Nat.add_sub_cancel]
    by_cases hj : j < k * N + 1
    · rw [first_getElem? _ _ _ hj, first_getElem? _ _ _ hj, first_getElem? _ _ _ hj]
      by_cases h : k * N = j
      · simp [h]
      · simp [h, Ne.symm h]
    · rw [List.getElem?_eq_none (by rw [first_length]; omega), List.getElem?_eq_none (by rw [first_length]; omega),
        List.getElem?_eq_none (by rw [first_length]; omega)]
  rw [hz]
  refine ⟨first_congr fun j hj => updates_word σ hσ N k opt hd hN _ _ _ j hj, ?_⟩
  rw [first, first, List.map_map]
  refine List.map_congr_left fun j hj => ?_
  rw [updates_word σ hσ N k opt hd hN _ _ _ j (List.mem_range.1 hj)]
  simp only [Function.comp]
  split <;> rfl

end Verif.Cuda.Be
