import Verif.Cuda.CircuitBootstrap
import Verif.Cuda.Props4
import Verif.Wop.Props4
/-
The buffers of the circuit bootstrap of CUDA after each launch.
-/
namespace Verif.Cuda.Cbs
open Verif Verif.Poly Verif.Glwe Verif.Pbs Verif.Decomp Verif.Pks Verif.Wop

variable {w : Nat}

theorem store_eq {α : Type} (f : Nat → α) : ∀ (ws : List (Nat × α)) (mem : Nat → α),
    (∀ x ∈ ws, x.2 = f x.1) → ∀ q, store ws mem q = if q ∈ ws.map Prod.fst then f q else mem q
  | [], mem, _, q => by simp [store]
  | x :: ws, mem, h, q => by
    have := store_eq f ws (Function.update mem x.1 x.2) (fun y hy => h y (by simp [hy])) q
    rw [store, List.foldl_cons]
    rw [store] at this
    rw [this]
    by_cases hq : q ∈ ws.map Prod.fst
    · rw [if_pos hq, if_pos (by simp only [List.map_cons, List.mem_cons]; exact .inr hq)]
    · rw [if_neg hq]
      by_cases hx : q = x.1
      · rw [if_pos (by simp [hx]), hx, Function.update_self, h x (by simp)]
      · rw [if_neg (by simp only [List.map_cons, List.mem_cons, not_or]; exact ⟨hx, hq⟩), Function.update_of_ne hx]

/-- A launch whose threads write `f q` at `q`, in any order. -/
theorem store_sched {α : Type} (σ : Sched α) (hσ : σ.Fair) (f : Nat → α) (ws : List (Nat × α)) (mem : Nat → α)
    (h : ∀ x ∈ ws, x.2 = f x.1) (q : Nat) : store (σ ws) mem q = if q ∈ ws.map Prod.fst then f q else mem q := by
  rw [store_eq f _ mem (fun x hx => h x ((hσ ws).mem_iff.1 hx)) q]
  simp only [((hσ ws).map Prod.fst).mem_iff]

/-- The positions of the threads of a block with a stride. -/
theorem stride {N opt j : Nat} (hd : opt ∣ N) (hj : j < N) : ∃ tid i, tid < N / opt ∧ i < opt ∧ j = tid + i * (N / opt) := by
  obtain ⟨t, rfl⟩ := hd
  rcases Nat.eq_zero_or_pos opt with h0 | h0
  · subst h0; omega
  rw [Nat.mul_div_cancel_left _ h0]
  have ht : 0 < t := by
    rcases Nat.eq_zero_or_pos t with h | h
    · subst h; omega
    · exact h
  exact ⟨j % t, j / t, Nat.mod_lt _ ht, (Nat.div_lt_iff_lt_mul ht).2 hj, by rw [Nat.mul_comm]; exact (Nat.mod_add_div _ _).symm⟩

theorem stride_lt {N opt tid i : Nat} (hd : opt ∣ N) (ht : tid < N / opt) (hi : i < opt) : tid + i * (N / opt) < N := by
  obtain ⟨t, rfl⟩ := hd
  rw [Nat.mul_div_cancel_left _ (by omega)] at *
  have : (i + 1) * t ≤ opt * t := Nat.mul_le_mul_right _ hi
  rw [Nat.succ_mul] at this
  omega

theorem part_length {α : Type} (mem : Nat → α) (len i : Nat) : (part mem len i).length = len := by simp [part]

theorem part_getElem? {α : Type} (mem : Nat → α) (len i j : Nat) (hj : j < len) :
    (part mem len i)[j]? = some (mem (i * len + j)) := by simp [part, hj]

theorem div_of {a s j : Nat} (hj : j < s) : (a * s + j) / s = a := by
  rw [Nat.mul_comm, Nat.mul_add_div (by omega), Nat.div_eq_of_lt hj, Nat.add_zero]

theorem mod_of {a s j : Nat} (hj : j < s) : (a * s + j) % s = j := by
  rw [Nat.mul_comm, Nat.mul_add_mod, Nat.mod_eq_of_lt hj]

/-- The buffer of the shifted inputs after the two launches. -/
theorem shifted_part (σ : Sched (BitVec w)) (hσ : σ.Fair) (lc inputs n : Nat) (v c : BitVec w) (src mem : Nat → BitVec w)
    (z : Nat) (hz : z < inputs * lc) :
    part (store (σ (bodyWrites (inputs * lc) n c (store (σ (shiftWrites lc inputs (n + 1) v src)) mem)))
      (store (σ (shiftWrites lc inputs (n + 1) v src)) mem)) (n + 1) z =
      addBody ((part src (n + 1) (z / lc)).map (· * v)) c := by
  have hlc : 0 < lc := by
    rcases Nat.eq_zero_or_pos lc with h | h
    · subst h; omega
    · exact h
  set f1 : Nat → BitVec w := fun q => src (q / (n + 1) / lc * (n + 1) + q % (n + 1)) * v with hf1
  have h1 : ∀ q, q < inputs * lc * (n + 1) → store (σ (shiftWrites lc inputs (n + 1) v src)) mem q = f1 q := by
    intro q hq
    rw [store_sched σ hσ f1, if_pos]
    · set j := q % (n + 1) with hj
      have hjl : j < n + 1 := Nat.mod_lt _ (by omega)
      have hzl : q / (n + 1) < inputs * lc := Nat.div_lt_of_lt_mul (by rw [Nat.mul_comm]; exact hq)
      refine List.mem_map.2 ⟨(q, src (q / (n + 1) / lc * (n + 1) + j) * v), ?_, rfl⟩
      simp only [shiftWrites, List.mem_map, List.mem_flatMap, List.mem_range, List.mem_append]
      refine ⟨q / (n + 1) / lc, Nat.div_lt_of_lt_mul (by rw [Nat.mul_comm]; exact hzl), q / (n + 1) % lc, Nat.mod_lt _ hlc,
        j % 256, Nat.mod_lt _ (by omega), ?_⟩
      have e1 : j % 256 + j / 256 * 256 = j := by omega
      have e2 : (q / (n + 1) / lc * lc + q / (n + 1) % lc) * (n + 1) + j = q := by
        rw [Nat.mul_comm (q / (n + 1) / lc), Nat.div_add_mod, Nat.mul_comm, hj, Nat.div_add_mod]
      by_cases hc : j / 256 < (n + 1) / 256
      · exact .inl ⟨j / 256, hc, by rw [e1, e2]⟩
      · have : j / 256 = (n + 1) / 256 := by omega
        right
        rw [if_pos (by omega), List.mem_singleton, ← this, e1, e2]
    · intro x hx
      simp only [shiftWrites, List.mem_flatMap, List.mem_range, List.mem_append, List.mem_map] at hx
      obtain ⟨y, hy, x', hx', tid, ht, h⟩ := hx
      have key : ∃ i, tid + i * 256 < n + 1 ∧ x = ((y * lc + x') * (n + 1) + (tid + i * 256),
          src (y * (n + 1) + (tid + i * 256)) * v) := by
        rcases h with ⟨i, hi, rfl⟩ | h
        · exact ⟨i, by omega, rfl⟩
        · split at h
          · rw [List.mem_singleton] at h
            exact ⟨_, by omega, h⟩
          · simp at h
      obtain ⟨i, hi, rfl⟩ := key
      simp only [hf1]
      rw [div_of hi, mod_of hi, div_of hx']
  apply List.ext_getElem?
  intro j
  by_cases hj : j < n + 1
  · have hq : z * (n + 1) + j < inputs * lc * (n + 1) := by
      have : (z + 1) * (n + 1) ≤ inputs * lc * (n + 1) := Nat.mul_le_mul_right _ hz
      rw [Nat.succ_mul] at this
      omega
    have e1 : f1 (z * (n + 1) + j) = src (z / lc * (n + 1) + j) * v := by
      simp only [hf1]; rw [div_of hj, mod_of hj]
    rw [part_getElem? _ _ _ _ hj, store_sched σ hσ (fun q => f1 q + c)]
    · rw [addBody, List.getElem?_modify, List.length_map, part_length, List.getElem?_map, part_getElem? _ _ _ _ hj]
      simp only [Option.map_some, Nat.add_sub_cancel]
      by_cases hn : j = n
      · subst hn
        rw [if_pos, e1]
        · simp
        · simp only [bodyWrites, List.map_map, List.mem_map, List.mem_range, Function.comp]
          exact ⟨z, hz, rfl⟩
      · rw [if_neg, h1 _ hq, e1]
        · simp [Ne.symm hn]
        · simp only [bodyWrites, List.map_map, List.mem_map, List.mem_range, Function.comp, not_exists, not_and]
          intro x hx he
          have := congrArg (· % (n + 1)) he
          rw [mod_of (by omega), mod_of hj] at this
          omega
    · intro x hx
      simp only [bodyWrites, List.mem_map, List.mem_range] at hx
      obtain ⟨y, hy, rfl⟩ := hx
      rw [h1]
      have : (y + 1) * (n + 1) ≤ inputs * lc * (n + 1) := Nat.mul_le_mul_right _ hy
      rw [Nat.succ_mul] at this
      omega
  · rw [List.getElem?_eq_none (by rw [part_length]; omega), List.getElem?_eq_none]
    rw [addBody, List.length_modify, List.length_map, part_length]; omega

/-- The lookup tables. -/
theorem lut_part (σ : Sched (BitVec w)) (hσ : σ.Fair) (N k opt bc lc : Nat) (hd : opt ∣ N) (mem : Nat → BitVec w)
    (x : Nat) (hx : x < lc) :
    part (store (σ (lutWrites w N k opt bc lc)) fun i => if i < lc * (k + 1) * N then 0#w else mem i) ((k + 1) * N) x =
      signAccumulator N k (1#w <<< (w - 1 - bc * (x + 1))) := by
  rcases Nat.eq_zero_or_pos N with hN | hN
  · subst hN
    simp [part, signAccumulator]
  apply List.ext_getElem?
  intro j
  have hG : (k + 1) * N = k * N + N := by ring
  by_cases hj : j < (k + 1) * N
  · have hq : x * ((k + 1) * N) + j < lc * (k + 1) * N := by
      have : (x + 1) * ((k + 1) * N) ≤ lc * ((k + 1) * N) := Nat.mul_le_mul_right _ hx
      rw [Nat.succ_mul, ← Nat.mul_assoc lc] at this
      omega
    rw [part_getElem? _ _ _ _ hj, store_sched σ hσ (fun q => 0#w - (1#w <<< (w - 1 - bc * (q / ((k + 1) * N) + 1))))]
    · rw [signAccumulator]
      by_cases hm : j < k * N
      · rw [if_neg, if_pos hq, List.getElem?_append_left (by simpa using hm)]
        · simp [hm]
        · intro hmem
          obtain ⟨a, ha, he⟩ := List.mem_map.1 hmem
          simp only [lutWrites, List.mem_map, List.mem_flatMap, List.mem_range] at ha
          obtain ⟨y, hy, tid, ht, i, hi, rfl⟩ := ha
          have h1 := congrArg (· % ((k + 1) * N)) he
          simp only at h1
          have hs := stride_lt hd ht hi
          rw [show (y * (k + 1) + k) * N + (tid + i * (N / opt)) = y * ((k + 1) * N) + (k * N + (tid + i * (N / opt))) by
            ring, mod_of (by omega), mod_of hj] at h1
          omega
      · rw [if_pos, List.getElem?_append_right (by simpa using hm), div_of hj, List.getElem?_replicate,
          if_pos (by simp only [List.length_replicate]; omega)]
        obtain ⟨tid, i, ht, hi, e⟩ := stride (j := j - k * N) hd (by omega)
        refine List.mem_map.2 ⟨((x * (k + 1) + k) * N + (tid + i * (N / opt)), 0#w - (1#w <<< (w - 1 - bc * (x + 1)))), ?_, ?_⟩
        · simp only [lutWrites, List.mem_map, List.mem_flatMap, List.mem_range]
          exact ⟨x, hx, tid, ht, i, hi, rfl⟩
        simp only
        rw [← e, Nat.add_mul, Nat.mul_assoc]; omega
    · intro y hy
      simp only [lutWrites, List.mem_map, List.mem_flatMap, List.mem_range] at hy
      obtain ⟨y', hy', tid, ht, i, hi, rfl⟩ := hy
      have hs := stride_lt hd ht hi
      simp only
      rw [show (y' * (k + 1) + k) * N + (tid + i * (N / opt)) = y' * ((k + 1) * N) + (k * N + (tid + i * (N / opt))) by
            ring, div_of (by omega)]
  · rw [List.getElem?_eq_none (by rw [part_length]; omega), List.getElem?_eq_none]
    rw [signAccumulator]; simp only [List.length_append, List.length_replicate]; omega

/-- The inputs of the keyswitches. -/
theorem copy_part (σ : Sched (BitVec w)) (hσ : σ.Fair) (N k opt bc lc count : Nat) (hd : opt ∣ N) (hN : 0 < N) (hk : 0 < k)
    (src mem : Nat → BitVec w) (x : Nat) (hx : x < count * (k + 1)) :
    part (store (σ (copyWrites N k opt bc lc count src)) mem) (k * N + 1) x =
      addBody (part src (k * N + 1) (x / (k + 1))) (1#w <<< (w - 1 - bc * (x / (k + 1) % lc + 1))) := by
  set F : Nat → BitVec w := fun q =>
    src (q / (k * N + 1) / (k + 1) * (k * N + 1) + q % (k * N + 1)) +
      if q % (k * N + 1) = k * N then 1#w <<< (w - 1 - bc * (q / (k * N + 1) / (k + 1) % lc + 1)) else 0 with hF
  have hopt : 0 < opt := by
    rcases Nat.eq_zero_or_pos opt with h | h
    · subst h; rw [Nat.zero_dvd] at hd; omega
    · exact h
  have hth : 0 < N / opt := Nat.div_pos (Nat.le_of_dvd hN hd) hopt
  have hval : ∀ q, q / (k * N + 1) < count * (k + 1) → store (σ (copyWrites N k opt bc lc count src)) mem q = F q := by
    intro q hq
    rw [store_sched σ hσ F, if_pos]
    · set j := q % (k * N + 1) with hj
      have hjl : j < k * N + 1 := Nat.mod_lt _ (by omega)
      have hqe : q / (k * N + 1) * (k * N + 1) + j = q := by rw [Nat.mul_comm, hj]; exact Nat.div_add_mod _ _
      by_cases hb : j = k * N
      · refine List.mem_map.2 ⟨(q / (k * N + 1) * (k * N + 1) + k * N, src (q / (k * N + 1) / (k + 1) * (k * N + 1) +
          k * N) + (1#w <<< (w - 1 - bc * (q / (k * N + 1) / (k + 1) % lc + 1)))), ?_, by rw [hb] at hqe; exact hqe⟩
        simp only [copyWrites, List.mem_map, List.mem_flatMap, List.mem_range, List.mem_append]
        exact ⟨q / (k * N + 1), hq, 0, hk, 0, hth, .inr (by rw [if_pos ⟨rfl, rfl⟩, List.mem_singleton])⟩
      · obtain ⟨tid, i, ht, hi, e⟩ := stride (j := j % N) hd (Nat.mod_lt _ hN)
        refine List.mem_map.2 ⟨(q / (k * N + 1) * (k * N + 1) + (j / N * N + (tid + i * (N / opt))),
          src (q / (k * N + 1) / (k + 1) * (k * N + 1) + (j / N * N + (tid + i * (N / opt))))), ?_, ?_⟩
        · simp only [copyWrites, List.mem_map, List.mem_flatMap, List.mem_range, List.mem_append]
          exact ⟨q / (k * N + 1), hq, j / N, (Nat.div_lt_iff_lt_mul hN).2 (by omega), tid, ht, .inl ⟨i, hi, rfl⟩⟩
        · simp only
          rw [← e, Nat.mul_comm (j / N), Nat.div_add_mod]; exact hqe
    · intro y hy
      simp only [copyWrites, List.mem_flatMap, List.mem_range, List.mem_append, List.mem_map] at hy
      obtain ⟨x', hx', y', hy', tid, ht, h⟩ := hy
      rcases h with ⟨i, hi, rfl⟩ | h
      · have hs := stride_lt hd ht hi
        have : (y' + 1) * N ≤ k * N := Nat.mul_le_mul_right _ hy'
        rw [Nat.succ_mul] at this
        simp only [hF]
        rw [div_of (by omega), mod_of (by omega), if_neg (by omega)]
        simp
      · split at h
        · rw [List.mem_singleton] at h
          subst h
          simp only [hF]
          rw [div_of (by omega), mod_of (by omega), if_pos rfl]
        · simp at h
  apply List.ext_getElem?
  intro j
  by_cases hj : j < k * N + 1
  · rw [part_getElem? _ _ _ _ hj, hval _ (by rw [div_of hj]; exact hx), addBody, List.getElem?_modify, part_length,
      part_getElem? _ _ _ _ hj]
    simp only [hF, Option.map_some, Nat.add_sub_cancel, Option.map_eq_map]
    rw [div_of hj, mod_of hj]
    by_cases hb : j = k * N
    · simp [hb]
    · simp [hb, Ne.symm hb]
  · rw [List.getElem?_eq_none (by rw [part_length]; omega), List.getElem?_eq_none]
    rw [addBody, List.length_modify, part_length]; omega

end Verif.Cuda.Cbs
