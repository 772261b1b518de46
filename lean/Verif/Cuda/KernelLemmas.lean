import Verif.Cuda.Kernels
import Verif.Cuda.Lemmas
/-
Lemmas about launches of element-wise kernels and about the loops over the GPUs.
-/
namespace Verif.Cuda

variable {α : Type}

theorem nextPow2_le (x k : Nat) (h : x - 1 < 2 ^ k) : nextPow2 x ≤ 2 ^ k := by
  have step : ∀ y s, y < 2 ^ k → y ||| (y >>> s) < 2 ^ k := fun y s hy =>
    Nat.or_lt_two_pow hy (lt_of_le_of_lt (Nat.shiftRight_le y s) hy)
  unfold nextPow2
  have := step _ 16 (step _ 8 (step _ 4 (step _ 2 (step _ 1 h))))
  simp only []
  omega

theorem numThreads_bounds (n : Nat) : 128 ≤ numThreads n ∧ numThreads n ≤ 512 := by
  unfold numThreads
  split
  · have := nextPow2_le ((n + 1) / 2) 9 (by norm_num; omega)
    norm_num at this
    omega
  · omega

/-- The grid covers all entries. -/
theorem grid_covers (n : Nat) : n ≤ numBlocks n * numThreads n := by
  obtain ⟨h1, h2⟩ := numThreads_bounds n
  unfold numBlocks
  have := Nat.div_add_mod (n + numThreads n - 1) (numThreads n)
  have hm := Nat.mod_lt (n + numThreads n - 1) (show 0 < numThreads n by omega)
  rw [Nat.mul_comm] at this
  omega

theorem numBlocks_eq_zero (n : Nat) : numBlocks n = 0 ↔ n = 0 := by
  obtain ⟨h1, h2⟩ := numThreads_bounds n
  unfold numBlocks
  rw [Nat.div_eq_zero_iff]
  omega

theorem foldl_bind_ok_none {β : Type} (ts : List Nat) (k : Nat → β → Out β) (o : Out β)
    (h : ∀ a, o ≠ .ok a) : ts.foldl (fun (acc : Out β) t => acc.bind (k t)) o = o := by
  induction ts with
  | nil => rfl
  | cons t ts ih =>
    rw [List.foldl_cons]
    cases o with
    | ok a => exact absurd rfl (h a)
    | panic => exact ih
    | exit => exact ih
    | overrun => exact ih

/-- Threads that each write one cell of their own. -/
theorem run_writes (n : Nat) (kernel : Nat → DVec α → Out (DVec α)) (pos : Nat → Nat)
    (val : Nat → Option α) (len : Nat)
    (hk : ∀ t out, out.length = len →
      kernel t out = if t < n then DVec.write out (pos t) (val t) else .ok out)
    (hpos : ∀ t, t < n → pos t < len)
    (inj : ∀ t u, t < n → u < n → pos t = pos u → t = u) :
    ∀ (ts : List Nat), ts.Nodup → ∀ out : DVec α, out.length = len →
      ∃ r : DVec α, ts.foldl (fun (acc : Out (DVec α)) t => acc.bind (kernel t)) (.ok out) = .ok r ∧ r.length = len ∧
        (∀ t ∈ ts, t < n → r[pos t]? = some (val t)) ∧
        ∀ i, (∀ t ∈ ts, t < n → pos t ≠ i) → r[i]? = out[i]? := by
  intro ts
  induction ts with
  | nil => intro _ out ho; exact ⟨out, rfl, ho, by simp, by simp⟩
  | cons t ts ih =>
    intro hnd out ho
    obtain ⟨hnt, hnd'⟩ := List.nodup_cons.1 hnd
    rw [List.foldl_cons, Out.bind_ok, hk t out ho]
    by_cases ht : t < n
    · rw [if_pos ht, DVec.write, if_pos (by rw [ho]; exact hpos t ht)]
      obtain ⟨r, e, hl, h1, h2⟩ := ih hnd' (out.set (pos t) (val t)) (by rw [List.length_set, ho])
      refine ⟨r, e, hl, ?_, ?_⟩
      · intro u hu hun
        rcases List.mem_cons.1 hu with rfl | hu
        · rw [h2 (pos u)]
          · rw [List.getElem?_set_self (by rw [ho]; exact hpos u ht)]
          · intro v hv hvn he
            exact hnt (inj v u hvn hun he ▸ hv)
        · exact h1 u hu hun
      · intro i hi
        rw [h2 i fun u hu hun => hi u (List.mem_cons_of_mem _ hu) hun]
        exact List.getElem?_set_ne (hi t (by simp) ht)
    · rw [if_neg ht]
      obtain ⟨r, e, hl, h1, h2⟩ := ih hnd' out ho
      refine ⟨r, e, hl, ?_, ?_⟩
      · intro u hu hun
        rcases List.mem_cons.1 hu with rfl | hu
        · exact absurd hun ht
        · exact h1 u hu hun
      · intro i hi
        exact h2 i fun u hu hun => hi u (List.mem_cons_of_mem _ hu) hun

theorem launch_writes (σ : Order) (hσ : σ.Complete) (n : Nat) (h0 : 0 < n) (hn : n ≤ 2 ^ 31 - 512)
    (kernel : Nat → DVec α → Out (DVec α)) (pos : Nat → Nat) (val : Nat → Option α) (out : DVec α)
    (hk : ∀ t o, o.length = out.length →
      kernel t o = if t < n then DVec.write o (pos t) (val t) else .ok o)
    (hpos : ∀ t, t < n → pos t < out.length)
    (inj : ∀ t u, t < n → u < n → pos t = pos u → t = u) :
    ∃ r : DVec α, launch σ n kernel out = .ok r ∧ r.length = out.length ∧
      (∀ t, t < n → r[pos t]? = some (val t)) ∧
      ∀ i, (∀ t, t < n → pos t ≠ i) → r[i]? = out[i]? := by
  obtain ⟨b1, b2⟩ := numThreads_bounds n
  unfold launch
  rw [if_neg]
  · have hp := hσ (numBlocks n * numThreads n)
    obtain ⟨r, e, hl, h1, h2⟩ := run_writes n kernel pos val out.length hk hpos inj _
      (hp.nodup_iff.2 List.nodup_range) out rfl
    refine ⟨r, e, hl, ?_, ?_⟩
    · intro t ht
      exact h1 t (hp.mem_iff.2 (List.mem_range.2 (lt_of_lt_of_le ht (grid_covers n)))) ht
    · intro i hi
      exact h2 i fun t _ ht => hi t ht
  · have := numBlocks_eq_zero n
    omega

/-- A launch without entries terminates the process. -/
theorem launch_zero (σ : Order) (kernel : Nat → DVec α → Out (DVec α)) (out : DVec α) :
    launch σ 0 kernel out = .exit := by
  unfold launch
  rw [if_pos]
  right; left
  exact (numBlocks_eq_zero 0).2 rfl

/-- The words `from, from + 1, …` of a vector given by its words. -/
def words (G : Nat → Option α) (start len : Nat) : DVec α := (List.range len).map fun t => G (start + t)

theorem words_length (G : Nat → Option α) (a b : Nat) : (words G a b).length = b := by simp [words]

theorem words_getElem? (G : Nat → Option α) (a b i : Nat) :
    (words G a b)[i]? = if i < b then some (G (a + i)) else none := by
  unfold words
  rw [List.getElem?_map]
  split
  · next h => rw [List.getElem?_range h]; rfl
  · next h => rw [List.getElem?_eq_none (by rw [List.length_range]; omega)]; rfl

/-- The vectors of the GPUs for `n` elements of `size` words, given by the words of the whole vector. -/
def shares (A size n : Nat) (G : Nat → Option α) : List (DVec α) :=
  (List.range A).map fun i =>
    words G (i * (n / A * size)) ((n / A + if i = A - 1 then n % A else 0) * size)

theorem shares_length (A size n : Nat) (G : Nat → Option α) : (shares A size n G).length = A := by
  simp [shares]

theorem shares_getElem? (A size n : Nat) (G : Nat → Option α) (i : Nat) (hi : i < A) :
    (shares A size n G)[i]? =
      some (words G (i * (n / A * size)) ((n / A + if i = A - 1 then n % A else 0) * size)) := by
  unfold shares
  rw [List.getElem?_map, List.getElem?_range hi]
  rfl

/-- The number of elements on the GPUs before GPU `i`, plus those on GPU `i`, is at most `n`. -/
theorem share_le (A n i : Nat) (hi : i < A) :
    i * (n / A) + (n / A + if i = A - 1 then n % A else 0) ≤ n := by
  have hdm := Nat.div_add_mod n A
  split
  · next h =>
    have : A * (n / A) = i * (n / A) + n / A := by
      rw [show A * (n / A) = (i + 1) * (n / A) from by rw [show i + 1 = A from by omega], Nat.add_mul,
        Nat.one_mul]
    omega
  · have : (i + 1) * (n / A) ≤ A * (n / A) := Nat.mul_le_mul_right _ hi
    rw [Nat.add_mul, Nat.one_mul] at this
    omega

theorem share_le_words (A size n i : Nat) (hi : i < A) :
    i * (n / A * size) + (n / A + if i = A - 1 then n % A else 0) * size ≤ n * size := by
  rw [← Nat.mul_assoc, ← Nat.add_mul]
  exact Nat.mul_le_mul_right _ (share_le A n i hi)

/-- Two vectors with the same words have the same shares. -/
theorem shares_congr (A size n : Nat) (G H : Nat → Option α) (h : ∀ i, i < n * size → G i = H i) :
    shares A size n G = shares A size n H := by
  unfold shares
  apply List.map_congr_left
  intro i hi
  apply List.ext_getElem?
  intro t
  rw [words_getElem?, words_getElem?]
  by_cases ht : t < (n / A + if i = A - 1 then n % A else 0) * size
  · have := share_le_words A size n i (List.mem_range.1 hi)
    rw [if_pos ht, if_pos ht, h _ (by omega)]
  · rw [if_neg ht, if_neg ht]

/-- What a transfer puts on the GPUs, when every GPU has a share. -/
theorem toGpus_shares (A size n : Nat) (xs : List α) (hA : 0 < A) (hz : 0 < size)
    (hx : xs.length = n * size) (hfit : n * size < 2 ^ 32) (hAn : A ≤ n) (hr : n % A < n / A) :
    toGpus A size xs = .ok (shares A size n fun i => xs[i]?) := by
  have hm : min n A = A := by omega
  rw [toGpus_ok A size n xs hA hz (by omega) hx hfit (by rw [hm]; exact hr), hm]
  congr 1
  apply List.ext_getElem?
  intro i
  by_cases hi : i < A
  · rw [shares_getElem? A size n _ i hi, List.getElem?_map, layout, List.getElem?_map,
      List.getElem?_range hi]
    simp only [Option.map_some, Option.some.injEq]
    have hdm := Nat.div_add_mod n A
    have hsw := share_le_words A size n i hi
    apply List.ext_getElem?
    intro t
    rw [words_getElem?, List.getElem?_map]
    split
    · next h =>
      rw [if_pos h] at hsw
      rw [List.getElem?_drop]
      have e : n * size = i * (n / A * size) + (n / A + n % A) * size := by
        rw [← Nat.mul_assoc, ← Nat.add_mul]
        congr 1
        have : A * (n / A) = i * (n / A) + n / A := by
          rw [show A * (n / A) = (i + 1) * (n / A) from by rw [show i + 1 = A from by omega], Nat.add_mul,
            Nat.one_mul]
        omega
      split
      · next ht =>
        rw [List.getElem?_eq_getElem (by omega)]; rfl
      · next ht => rw [List.getElem?_eq_none (by omega)]; rfl
    · next h =>
      rw [if_neg h, Nat.add_zero] at hsw
      rw [Nat.add_zero]
      split
      · next ht =>
        rw [block_getElem? _ _ _ _ ht, List.getElem?_eq_getElem (by omega)]; rfl
      · next ht =>
        rw [block, List.getElem?_eq_none (by rw [List.length_take]; omega)]; rfl
  · rw [List.getElem?_eq_none (by rw [List.length_map, layout_length]; omega),
      List.getElem?_eq_none (by rw [shares_length]; omega)]

/-- A loop over the GPUs whose jobs fill the share of each with the words of `G`. -/
theorem forGpus_shares (A size n : Nat) (G H : Nat → Option α)
    (job : Nat → Nat → DVec α → Out (DVec α)) (hA : 0 < A) (hAn : A ≤ n)
    (hjob : ∀ i, i < A → ∀ out : DVec α,
      out.length = (n / A + if i = A - 1 then n % A else 0) * size →
      job i (n / A + if i = A - 1 then n % A else 0) out =
        .ok (words G (i * (n / A * size)) ((n / A + if i = A - 1 then n % A else 0) * size))) :
    forGpus A n job 0 (shares A size n H) = .ok (shares A size n G) := by
  have hact : activeGpus A n = A := by rw [activeGpus_eq]; omega
  suffices h : ∀ k i, i + k = A →
      forGpus A n job i (((List.range' i k)).map fun i =>
        words H (i * (n / A * size)) ((n / A + if i = A - 1 then n % A else 0) * size)) =
      .ok (((List.range' i k)).map fun i =>
        words G (i * (n / A * size)) ((n / A + if i = A - 1 then n % A else 0) * size)) by
    have := h A 0 (by omega)
    rw [← List.range_eq_range'] at this
    exact this
  intro k
  induction k with
  | zero =>
    intro i hi
    simp only [List.range'_zero, List.map_nil, forGpus]
    rw [if_neg (by omega)]
  | succ k ih =>
    intro i hi
    rw [List.range'_succ, List.map_cons, List.map_cons, forGpus, if_pos (by omega), samplesOnGpu,
      if_neg (by omega), Out.bind_ok, hjob i (by omega) _ (words_length _ _ _), Out.bind_ok,
      ih (i + 1) (by omega), Out.bind_ok]

/-- With fewer elements than GPUs, every job gets zero samples. -/
theorem forGpus_few (A n : Nat) (job : Nat → Nat → DVec α → Out (DVec α)) (out : DVec α)
    (outs : List (DVec α)) (hn : 0 < n) (hlt : n < A) (h : job 0 0 out = .exit) :
    forGpus A n job 0 (out :: outs) = .exit := by
  have hact : activeGpus A n = n := by rw [activeGpus_eq]; omega
  rw [forGpus, if_pos (by omega), samplesOnGpu, if_neg (by omega), Out.bind_ok, if_neg (by omega),
    Nat.div_eq_of_lt hlt, h]
  rfl

theorem getVec_shares (A size n : Nat) (G : Nat → Option α) (i : Nat) (hi : i < A) :
    getVec (shares A size n G) i =
      .ok (words G (i * (n / A * size)) ((n / A + if i = A - 1 then n % A else 0) * size)) := by
  rw [getVec, shares_getElem? A size n G i hi]

theorem words_read (G : Nat → Option α) (a b i : Nat) (h : i < b) :
    DVec.read (words G a b) i = .ok (G (a + i)) := by
  rw [DVec.read, words_getElem?, if_pos h]

/-- A launch that writes every word of a vector. -/
theorem launch_words (σ : Order) (hσ : σ.Complete) (G : Nat → Option α) (a len : Nat) (h0 : 0 < len)
    (hn : len ≤ 2 ^ 31 - 512) (kernel : Nat → DVec α → Out (DVec α)) (out : DVec α)
    (ho : out.length = len)
    (hk : ∀ t o, o.length = len →
      kernel t o = if t < len then DVec.write o t (G (a + t)) else .ok o) :
    launch σ len kernel out = .ok (words G a len) := by
  obtain ⟨r, e, hl, h1, _⟩ := launch_writes σ hσ len h0 hn kernel id (fun t => G (a + t)) out
    (fun t o h => hk t o (by rw [h, ho])) (fun t h => by rw [ho]; exact h) (fun t u _ _ h => h)
  rw [e]
  congr 1
  apply List.ext_getElem?
  intro i
  rw [words_getElem?]
  split
  · next h => exact h1 i h
  · next h => exact List.getElem?_eq_none (by omega)

end Verif.Cuda
