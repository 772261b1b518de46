import Verif.Cuda.Model
import Mathlib.Tactic.Ring
/-
Lemmas about transfers between the CPU and the GPUs.
-/
namespace Verif.Cuda

variable {α : Type}

@[simp] theorem Out.bind_ok {β : Type} (a : α) (f : α → Out β) : (Out.ok a).bind f = f a := rfl
@[simp] theorem Out.bind_panic {β : Type} (f : α → Out β) : (Out.panic : Out α).bind f = .panic := rfl
@[simp] theorem Out.bind_exit {β : Type} (f : α → Out β) : (Out.exit : Out α).bind f = .exit := rfl
@[simp] theorem Out.bind_overrun {β : Type} (f : α → Out β) : (Out.overrun : Out α).bind f = .overrun := rfl

theorem activeGpus_eq (A n : Nat) : activeGpus A n = min n A := by
  unfold activeGpus; split <;> omega

/-- A chunk is copied whole into a vector allocated for it, when its length fits in 32 bits. -/
theorem copy_malloc (xs : List α) (h : xs.length < 2 ^ 32) :
    copyToGpu (malloc xs.length) xs = .ok (xs.map some) := by
  unfold copyToGpu malloc
  rw [Nat.mod_eq_of_lt h]
  simp

theorem copy_malloc_overrun (xs : List α) (h : 2 ^ 32 ≤ xs.length) :
    copyToGpu (malloc xs.length) xs = .overrun := by
  unfold copyToGpu malloc
  rw [if_neg]
  rw [List.length_replicate]
  have := Nat.mod_lt xs.length (show 2 ^ 32 > 0 by norm_num)
  omega

/-- The words that chunk `i` brings to its GPU. -/
def chunkData (gpus : Nat) (rem : List α) (i : Nat) (c : List α) : List α :=
  if i = gpus - 1 then c ++ rem else c

theorem sendChunks_ok (avail gpus : Nat) (rem : List α) : ∀ (cs : List (List α)) (i : Nat),
    i + cs.length ≤ avail → (∀ c ∈ cs, c.length + rem.length < 2 ^ 32) →
    sendChunks avail gpus rem i cs =
      .ok (cs.mapIdx fun k c => (chunkData gpus rem (i + k) c).map some) := by
  intro cs
  induction cs with
  | nil => intro i _ _; rfl
  | cons c cs ih =>
    intro i h hl
    have hc := hl c (by simp)
    simp only [List.length_cons] at h
    rw [sendChunks, if_neg (by omega)]
    have hd : (chunkData gpus rem i c).length < 2 ^ 32 := by
      unfold chunkData; split
      · rw [List.length_append]; exact hc
      · omega
    have e := copy_malloc _ hd
    unfold chunkData at e
    simp only [e, Out.bind_ok]
    rw [ih (i + 1) (by omega) (fun c' h' => hl c' (by simp [h']))]
    simp only [Out.bind_ok, List.mapIdx_cons, Nat.add_zero]
    congr 2
    apply List.ext_getElem?
    intro k
    simp only [List.getElem?_mapIdx]
    rw [show i + 1 + k = i + (k + 1) from by omega]

theorem sendChunks_panic (avail gpus : Nat) (rem : List α) : ∀ (cs : List (List α)) (i : Nat),
    i ≤ avail → avail < i + cs.length → (∀ c ∈ cs, c.length + rem.length < 2 ^ 32) →
    sendChunks avail gpus rem i cs = .panic := by
  intro cs
  induction cs with
  | nil => intro i _ h _; simp at h; omega
  | cons c cs ih =>
    intro i hi h hl
    have hc := hl c (by simp)
    simp only [List.length_cons] at h
    rw [sendChunks]
    by_cases ha : avail ≤ i
    · rw [if_pos ha]
    · rw [if_neg ha]
      have hd : (chunkData gpus rem i c).length < 2 ^ 32 := by
        unfold chunkData; split
        · rw [List.length_append]; exact hc
        · omega
      have e := copy_malloc _ hd
      unfold chunkData at e
      simp only [e, Out.bind_ok]
      rw [ih (i + 1) (by omega) (by omega) (fun c' h' => hl c' (by simp [h']))]
      rfl

theorem chunksExact_length (n : Nat) (l : List α) : (chunksExact n l).length = l.length / n := by
  simp [chunksExact]

theorem chunksExact_mem_length (n : Nat) (l c : List α) (h : c ∈ chunksExact n l) :
    c.length = n := by
  simp only [chunksExact, List.mem_map, List.mem_range] at h
  obtain ⟨i, hi, rfl⟩ := h
  apply block_length
  calc (i + 1) * n ≤ l.length / n * n := Nat.mul_le_mul_right _ hi
    _ ≤ l.length := Nat.div_mul_le_self _ _

theorem chunksRemainder_length (n : Nat) (l : List α) :
    (chunksRemainder n l).length = l.length - l.length / n * n := by
  simp [chunksRemainder]

/-- Joining the chunks gives the list back, up to the remainder. -/
theorem chunksExact_flatten_aux (n : Nat) (l : List α) : ∀ k, k * n ≤ l.length →
    ((List.range k).map fun i => block n l i).flatten = l.take (k * n) := by
  intro k
  induction k with
  | zero => intro _; simp
  | succ k ih =>
    intro h
    rw [List.range_succ, List.map_append, List.flatten_append, ih (by rw [Nat.succ_mul] at h; omega)]
    simp only [List.map_cons, List.map_nil, List.flatten_cons, List.flatten_nil, List.append_nil]
    rw [Nat.succ_mul, block, List.take_add]

/-- Number of chunks of `s` ciphertexts in `n` ciphertexts. -/
theorem div_chunks (n s size : Nat) (hz : 0 < size) : n * size / (s * size) = n / s :=
  Nat.mul_div_mul_right n s hz

/-- What the GPUs hold after a transfer: `g` vectors of `per` words each, the last one with all the
remaining words. -/
def layout (g per : Nat) (xs : List α) : List (List α) :=
  (List.range g).map fun i => if i = g - 1 then xs.drop (i * per) else block per xs i

theorem layout_length (g per : Nat) (xs : List α) : (layout g per xs).length = g := by
  simp [layout]

/-- With `n` ciphertexts, `g` active GPUs, and a remainder smaller than a share, the transfer succeeds
and every GPU gets its share. -/
theorem toGpus_ok (A size n : Nat) (xs : List α) (hA : 0 < A) (hz : 0 < size) (hn : 0 < n)
    (hx : xs.length = n * size) (hfit : n * size < 2 ^ 32)
    (hr : n % min n A < n / min n A) :
    toGpus A size xs =
      .ok ((layout (min n A) (n / min n A * size) xs).map fun v => v.map some) := by
  have hc : xs.length / size = n := by rw [hx, Nat.mul_div_cancel _ hz]
  have hg : 0 < min n A := by omega
  unfold toGpus
  simp only [hc, activeGpus_eq, samplesOnGpu]
  rw [if_neg (by omega)]
  simp only [Out.bind_ok]
  -- the share of GPU 0: no remainder unless it is the only GPU, where the remainder is zero
  have hs : (n / min n A + if 0 = min n A - 1 then n % min n A else 0) = n / min n A := by
    split
    · next h => have : min n A = 1 := by omega
                rw [this, Nat.mod_one, Nat.add_zero]
    · rfl
  rw [hs]
  set g := min n A with hgdef
  set s := n / g with hsdef
  have hspos : 0 < s := Nat.div_pos (by omega) hg
  have hp : s * size ≠ 0 := Nat.mul_ne_zero (by omega) (by omega)
  rw [if_neg hp]
  have hk : n / s = g := by
    have h1 := Nat.div_add_mod n g
    rw [← hsdef] at h1
    apply Nat.div_eq_of_lt_le
    · omega
    · rw [Nat.add_mul, Nat.one_mul]; omega
  have hlen : (chunksExact (s * size) xs).length = g := by
    rw [chunksExact_length, hx, div_chunks _ _ _ hz, hk]
  have hgs : g * (s * size) ≤ n * size := by
    rw [← Nat.mul_assoc]
    apply Nat.mul_le_mul_right
    rw [Nat.mul_comm]
    exact Nat.div_mul_le_self n g
  have hrem : (chunksRemainder (s * size) xs).length = n * size - g * (s * size) := by
    rw [chunksRemainder_length, hx, div_chunks _ _ _ hz, hk]
  rw [sendChunks_ok A g _ _ 0 (by rw [hlen]; omega)]
  · congr 1
    apply List.ext_getElem?
    intro i
    simp only [List.getElem?_mapIdx, List.getElem?_map, layout, chunksExact,
      Nat.zero_add]
    rw [hx, div_chunks _ _ _ hz, hk]
    by_cases hi : i < g
    · rw [List.getElem?_range hi]
      simp only [Option.map_some, Option.some.injEq]
      congr 1
      unfold chunkData
      split
      · next h =>
        rw [block, chunksRemainder, hx, div_chunks _ _ _ hz, hk]
        have e : g * (s * size) = i * (s * size) + s * size := by
          rw [show g = i + 1 from by omega, Nat.add_mul, Nat.one_mul]
        rw [e, ← List.drop_drop]
        exact List.take_append_drop _ _
      · rfl
    · rw [List.getElem?_eq_none (by rw [List.length_range]; omega)]
      rfl
  · intro c hcm
    rw [chunksExact_mem_length _ _ _ hcm, hrem]
    have : 1 * (s * size) ≤ g * (s * size) := Nat.mul_le_mul_right _ hg
    omega

/-- With a remainder at least as large as a share, there is one chunk too many. -/
theorem toGpus_panic (A size n : Nat) (xs : List α) (hA : 0 < A) (hz : 0 < size)
    (hx : xs.length = n * size) (hfit : n * size < 2 ^ 32) (hAn : A ≤ n) (hr : n / A ≤ n % A) :
    toGpus A size xs = .panic := by
  have hc : xs.length / size = n := by rw [hx, Nat.mul_div_cancel _ hz]
  have hg : min n A = A := by omega
  unfold toGpus
  simp only [hc, activeGpus_eq, samplesOnGpu, hg]
  rw [if_neg (by omega)]
  simp only [Out.bind_ok]
  have hA1 : A ≠ 1 := by
    rintro rfl
    rw [Nat.div_one, Nat.mod_one] at hr
    omega
  have hs : (n / A + if 0 = A - 1 then n % A else 0) = n / A := by rw [if_neg (by omega)]; rfl
  rw [hs]
  set s := n / A with hsdef
  have hspos : 0 < s := Nat.div_pos hAn hA
  have hp : s * size ≠ 0 := Nat.mul_ne_zero (by omega) (by omega)
  rw [if_neg hp]
  have hk : A + 1 ≤ n / s := by
    rw [Nat.le_div_iff_mul_le hspos, Nat.add_mul, Nat.one_mul]
    have h1 := Nat.div_add_mod n A
    rw [← hsdef] at h1
    omega
  apply sendChunks_panic _ _ _ _ _ (by omega)
  · rw [chunksExact_length, hx, div_chunks _ _ _ hz]; omega
  · intro c hcm
    rw [chunksExact_mem_length _ _ _ hcm, chunksRemainder_length, hx, div_chunks _ _ _ hz]
    have h1 : 1 * (s * size) ≤ n / s * (s * size) := Nat.mul_le_mul_right _ (by omega)
    have h2 : n / s * (s * size) ≤ n * size := by
      rw [← Nat.mul_assoc]
      exact Nat.mul_le_mul_right _ (Nat.div_mul_le_self n s)
    omega

/-- The chunks of the output, filled from the vectors of the GPUs. -/
theorem fetchChunks_ok (avail per : Nat) (vecs : List (DVec α)) :
    ∀ (cs : List (List (Option α))) (i : Nat), i + cs.length ≤ avail → i + cs.length ≤ vecs.length →
      (∀ c ∈ cs, c.length = per) → (∀ v ∈ vecs, per ≤ v.length) →
      fetchChunks avail per vecs i cs =
        .ok ((List.range cs.length).map fun k => (vecs.getD (i + k) []).take per) := by
  intro cs
  induction cs with
  | nil => intro i _ _ _ _; rfl
  | cons c cs ih =>
    intro i h1 h2 hl hv
    simp only [List.length_cons] at h1 h2
    have hi : i < vecs.length := by omega
    rw [fetchChunks, if_neg (by omega), List.getElem?_eq_getElem hi]
    simp only []
    rw [hl c (by simp), copyToCpu, if_pos (hv _ (List.getElem_mem hi))]
    simp only [Out.bind_ok]
    rw [ih (i + 1) (by omega) (by omega) (fun c' h' => hl c' (by simp [h'])) hv]
    simp only [Out.bind_ok, List.length_cons, List.range_succ_eq_map, List.map_cons, List.map_map]
    congr 2
    · simp [List.getD_eq_getElem?_getD, hi]
    · apply List.map_congr_left
      intro k _
      simp only [Function.comp]
      rw [show i + 1 + k = i + (k + 1) from by omega]

theorem broadcast_ok (A : Nat) (xs : List α) (h : xs.length < 2 ^ 32) :
    broadcast A xs = .ok (List.replicate A (xs.map some)) := by
  induction A with
  | zero => rfl
  | succ A ih =>
    rw [broadcast, copy_malloc _ h]
    simp only [Out.bind_ok, ih]
    rfl

/-- Back to the CPU: shares of `n / A` ciphertexts from every GPU, and a remainder read from the first
words of the last vector. -/
theorem discardFromGpus_ok (A size n : Nat) (vecs : List (DVec α)) (out : List (Option α))
    (hA : 0 < A) (hz : 0 < size) (hAn : A ≤ n) (ho : out.length = n * size)
    (hr : n % A < n / A) (hv : vecs.length = A) (hl : ∀ v ∈ vecs, n / A * size ≤ v.length) :
    discardFromGpus A size n vecs out =
      .ok (((List.range A).map fun k => (vecs.getD k []).take (n / A * size)).flatten ++
        (vecs.getD (A - 1) []).take (n % A * size)) := by
  unfold discardFromGpus
  simp only [samplesOnGpu]
  rw [if_neg (by omega)]
  simp only [Out.bind_ok]
  have hs : (n / A + if 0 = A - 1 then n % A else 0) = n / A := by
    split
    · next h => have : A = 1 := by omega
                rw [this, Nat.mod_one, Nat.add_zero]
    · rfl
  rw [hs]
  have hdm := Nat.div_add_mod n A
  set s := n / A with hsdef
  have hspos : 0 < s := Nat.div_pos hAn hA
  rw [if_neg (Nat.mul_ne_zero (by omega) (by omega))]
  have hk : n / s = A := by
    apply Nat.div_eq_of_lt_le
    · omega
    · rw [Nat.add_mul, Nat.one_mul]; omega
  have hlen : (chunksExact (s * size) out).length = A := by
    rw [chunksExact_length, ho, div_chunks _ _ _ hz, hk]
  have hrl : (chunksRemainder (s * size) out).length = n % A * size := by
    rw [chunksRemainder_length, ho, div_chunks _ _ _ hz, hk, ← Nat.mul_assoc, ← Nat.sub_mul]
    congr 1; omega
  rw [fetchChunks_ok A (s * size) vecs _ 0 (by omega) (by omega)
    (fun c hc => chunksExact_mem_length _ _ _ hc) hl]
  simp only [Out.bind_ok, Nat.zero_add, hlen]
  have hne : vecs ≠ [] := by rintro rfl; simp at hv; omega
  have hlast : vecs.getLast? = some (vecs.getD (A - 1) []) := by
    rw [List.getLast?_eq_getElem?, hv, List.getD_eq_getElem?_getD,
      List.getElem?_eq_getElem (by omega)]
    rfl
  by_cases hlt : s * A < n
  · rw [if_pos hlt, hlast]
    simp only [copyToCpu, hrl]
    rw [if_pos]
    · rfl
    · have h1 : n % A * size ≤ s * size := Nat.mul_le_mul_right _ (by omega)
      have h2 : vecs.getD (A - 1) [] ∈ vecs := by
        rw [List.getD_eq_getElem?_getD, List.getElem?_eq_getElem (by omega)]
        exact List.getElem_mem _
      exact le_trans h1 (hl _ h2)
  · rw [if_neg hlt]
    have h0 : n % A = 0 := by rw [Nat.mul_comm] at hlt; omega
    have : chunksRemainder (s * size) out = [] := by
      apply List.eq_nil_of_length_eq_zero
      rw [hrl, h0, Nat.zero_mul]
    rw [this, h0, Nat.zero_mul, List.take_zero]

/-- Fewer ciphertexts than GPUs: the share is zero and `chunks_exact_mut(0)` panics. -/
theorem discardFromGpus_panic (A size n : Nat) (vecs : List (DVec α)) (out : List (Option α))
    (h : n < A) (h2 : 2 ≤ A) : discardFromGpus A size n vecs out = .panic := by
  unfold discardFromGpus
  simp only [samplesOnGpu]
  rw [if_neg (by omega)]
  simp only [Out.bind_ok]
  have hs : (n / A + if 0 = A - 1 then n % A else 0) = 0 := by
    rw [if_neg (by omega), Nat.div_eq_of_lt h]
  rw [hs, Nat.zero_mul, if_pos rfl]

/-- A round trip when every GPU has a share and the remainder is smaller than a share. -/
theorem roundTrip_general (A size n : Nat) (zero : α) (xs : List α) (hA : 0 < A) (hz : 0 < size)
    (hx : xs.length = n * size) (hfit : n * size < 2 ^ 32) (hAn : A ≤ n) (hr : n % A < n / A) :
    roundTrip A size zero xs =
      .ok ((xs.map some).take (A * (n / A * size)) ++
        (((xs.map some).drop ((A - 1) * (n / A * size))).take (n % A * size))) := by
  have hm : min n A = A := by omega
  have hdm := Nat.div_add_mod n A
  have hle : A * (n / A * size) ≤ xs.length := by
    rw [hx, ← Nat.mul_assoc]; exact Nat.mul_le_mul_right _ (by omega)
  unfold roundTrip
  rw [toGpus_ok A size n xs hA hz (by omega) hx hfit (by rw [hm]; exact hr), hm]
  simp only [Out.bind_ok, fromGpus]
  rw [hx, Nat.mul_div_cancel _ hz]
  have hget : ∀ k, k < A → ((layout A (n / A * size) xs).map fun v => v.map some).getD k [] =
      (if k = A - 1 then xs.drop (k * (n / A * size)) else block (n / A * size) xs k).map some := by
    intro k hk
    rw [List.getD_eq_getElem?_getD, List.getElem?_map, layout, List.getElem?_map,
      List.getElem?_range hk]
    rfl
  rw [discardFromGpus_ok A size n _ _ hA hz hAn (by rw [List.length_replicate, Nat.mul_comm]) hr
    (by rw [List.length_map, layout_length])]
  · congr 2
    · have e : ((List.range A).map fun k =>
          (((layout A (n / A * size) xs).map fun v => v.map some).getD k []).take (n / A * size)) =
          (List.range A).map fun k => block (n / A * size) (xs.map some) k := by
        apply List.map_congr_left
        intro k hk
        rw [hget k (List.mem_range.1 hk)]
        split
        · rw [block, List.map_drop]
        · rw [block, block, List.map_take, List.map_drop, List.take_take, Nat.min_self]
      rw [e, chunksExact_flatten_aux _ _ _ (by rw [List.length_map]; exact hle)]
    · rw [hget _ (by omega), if_pos rfl, List.map_drop]
  · intro v hv
    simp only [layout, List.map_map, List.mem_map, List.mem_range, Function.comp] at hv
    obtain ⟨i, hi, rfl⟩ := hv
    have h1 : (i + 1) * (n / A * size) ≤ A * (n / A * size) := Nat.mul_le_mul_right _ hi
    rw [List.length_map]
    split
    · rw [List.length_drop]
      rw [Nat.add_mul, Nat.one_mul] at h1
      omega
    · rw [block_length _ _ _ (le_trans h1 hle)]

/-- The memory check passes when every share fits. -/
theorem memoryCheck_ok (A size n bytes : Nat) (free : Nat → Nat) (hA : 0 < A) :
    memoryCheck A size n bytes free = .ok true ↔
      ∀ i, i < min n A → (n / A + if i = A - 1 then n % A else 0) * size * bytes ≤ free i := by
  unfold memoryCheck
  rw [activeGpus_eq]
  generalize min n A = g
  induction g with
  | zero => simp
  | succ g ih =>
    rw [List.range_succ, List.foldl_append]
    simp only [List.foldl_cons, List.foldl_nil]
    have hb : ∃ b, (List.range g).foldl (fun (acc : Out Bool) i =>
        acc.bind fun b =>
          if b then (samplesOnGpu A n i).bind fun samples => .ok (decide (samples * size * bytes ≤ free i))
          else .ok false) (.ok true) = Out.ok b := by
      clear ih
      induction g with
      | zero => exact ⟨true, rfl⟩
      | succ g ih =>
        obtain ⟨b, e⟩ := ih
        rw [List.range_succ, List.foldl_append, e]
        simp only [List.foldl_cons, List.foldl_nil, Out.bind_ok, samplesOnGpu]
        cases b
        · exact ⟨false, rfl⟩
        · rw [if_pos rfl, if_neg (by omega)]; exact ⟨_, rfl⟩
    obtain ⟨b, e⟩ := hb
    rw [e] at ih ⊢
    simp only [Out.bind_ok, samplesOnGpu]
    cases b
    · simp only [Bool.false_eq_true, if_false]
      constructor
      · intro h; cases h
      · intro h
        have := ih.2 fun i hi => h i (by omega)
        cases this
    · have hall := ih.1 rfl
      rw [if_pos rfl, if_neg (by omega)]
      simp only [Out.bind_ok, Out.ok.injEq, decide_eq_true_eq]
      constructor
      · intro h i hi
        by_cases he : i = g
        · rw [he]; exact h
        · exact hall i (by omega)
      · intro h; exact h g (by omega)

end Verif.Cuda
