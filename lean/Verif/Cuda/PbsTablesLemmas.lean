import Verif.Cuda.PbsTables
import Verif.Cuda.Props2
/-
Lemmas for C77.
-/
namespace Verif.Cuda

variable {α : Type}

theorem lutIndexes_eq (n : Nat) : lutIndexes n = [] := rfl

theorem values_map_some (l : List α) : values (l.map some) = some l := by
  induction l with
  | nil => rfl
  | cons a l ih => simp [values, ih]

/-- The index vector stays as it was allocated. -/
theorem indexes_unwritten (n m : Nat) (h : n < 2 ^ 32) :
    copyToGpu (malloc n) (lutIndexes m) = .ok (List.replicate n none) := by
  rw [copyToGpu, lutIndexes_eq, malloc, Nat.mod_eq_of_lt h]
  simp

theorem lutIndex_unwritten (junk : Nat → Nat) (n p : Nat) (h : p < n) :
    lutIndex junk (List.replicate n none) p = .ok (junk p) := by
  rw [lutIndex, DVec.read, List.getElem?_replicate, if_pos h]
  rfl

/-- Vectors on the GPUs, with any number of GPUs. -/
theorem onGpus_shares_min {A size n : Nat} {xs : List α} {vecs : List (DVec α)} (hA : 0 < A) (hz : 0 < size)
    (hn : 0 < n) (hfit : n * size < 2 ^ 32) (hx : xs.length = n * size) (h : OnGpus A size xs vecs) :
    n % min n A < n / min n A ∧ vecs = shares (min n A) size n fun i => xs[i]? := by
  rcases Nat.lt_or_ge n A with hlt | hge
  · have hm : min n A = n := by omega
    have hm' : min n n = n := by omega
    have hr : n % n < n / n := by rw [Nat.mod_self, Nat.div_self hn]; omega
    refine ⟨by rw [hm]; exact hr, ?_⟩
    rw [OnGpus, toGpus_ok A size n xs hA hz hn hx hfit (by rw [hm]; exact hr), hm] at h
    have h2 := toGpus_shares n size n xs hn hz hx hfit le_rfl hr
    rw [toGpus_ok n size n xs hn hz hn hx hfit (by rw [hm']; exact hr), hm'] at h2
    rw [hm]
    exact Out.ok.inj (h.symm.trans h2)
  · rw [show min n A = A from by omega]
    exact onGpus_shares hA hz hge hfit hx h

theorem onGpus_min {A size n : Nat} {xs : List α} (hA : 0 < A) (hz : 0 < size)
    (hn : 0 < n) (hfit : n * size < 2 ^ 32) (hx : xs.length = n * size) (hr : n % min n A < n / min n A) :
    OnGpus A size xs (shares (min n A) size n fun i => xs[i]?) := by
  rcases Nat.lt_or_ge n A with hlt | hge
  · have hm : min n A = n := by omega
    have hm' : min n n = n := by omega
    rw [hm] at hr ⊢
    have h2 := toGpus_shares n size n xs hn hz hx hfit le_rfl hr
    rw [toGpus_ok n size n xs hn hz hn hx hfit (by rw [hm']; exact hr), hm'] at h2
    rw [OnGpus, toGpus_ok A size n xs hA hz hn hx hfit (by rw [hm]; exact hr), hm]
    exact h2
  · rw [show min n A = A from by omega] at hr ⊢
    exact toGpus_shares A size n xs hA hz hx hfit hge hr

theorem readRange_block (xs : List α) (size p : Nat) (h : (p + 1) * size ≤ xs.length) :
    readRange (xs.map some) (p * size) size = .ok ((block size xs p).map some) := by
  rw [Nat.add_mul, Nat.one_mul] at h
  rw [readRange, if_pos (by rw [List.length_map]; exact h), block, List.map_take, List.map_drop]

/-- The words of the ciphertext `z` of a GPU. -/
theorem readRange_words (xs : List α) (size s m z : Nat) (hz : z < m) (h : (s + m) * size ≤ xs.length) :
    readRange (words (fun i => xs[i]?) (s * size) (m * size)) (z * size) size =
      .ok ((block size xs (s + z)).map some) := by
  have h1 : (z + 1) * size ≤ m * size := Nat.mul_le_mul_right _ hz
  have h2 : (s + z + 1) * size ≤ xs.length := le_trans (Nat.mul_le_mul_right _ (by omega)) h
  have h3 := block_length size xs (s + z) h2
  rw [Nat.add_mul, Nat.one_mul] at h1
  rw [readRange, if_pos (by rw [words_length]; exact h1)]
  congr 1
  apply List.ext_getElem?
  intro j
  by_cases hj : j < size
  · rw [List.getElem?_take_of_lt hj, List.getElem?_drop, words_getElem?, if_pos (by omega),
      List.getElem?_map, block_getElem? _ _ _ _ hj]
    have hlt : (s + z) * size + j < xs.length := by
      rw [Nat.add_mul, Nat.one_mul] at h2; omega
    rw [show s * size + (z * size + j) = (s + z) * size + j from by rw [Nat.add_mul]; omega,
      List.getElem?_eq_getElem hlt]
    rfl
  · rw [List.getElem?_eq_none (by rw [List.length_take]; omega),
      List.getElem?_eq_none (by rw [List.length_map]; omega)]

/-- The words that the bootstraps should compute, `f i` being the table of ciphertext `i`. -/
def pbsWord (boot : List α → List α → Nat → α) (sizeIn sizeLut sizeOut : Nat) (f : Nat → Nat) (accs xs : List α)
    (i : Nat) : α :=
  boot (block sizeLut accs (f (i / sizeOut))) (block sizeIn xs (i / sizeOut)) (i % sizeOut)

/-- One launch. -/
theorem hostPbs_ok (σ : Order) (hσ : σ.Complete) (boot : List α → List α → Nat → α)
    (w sizeIn sizeLut sizeOut samples base s n : Nat) (f junk : Nat → Nat) (idx : DVec Nat) (accs xs : List α) (out : DVec α)
    (ho : 0 < sizeOut)
    (la : accs.length = n * sizeLut) (lx : (s + samples) * sizeIn ≤ xs.length)
    (lo : out.length = samples * sizeOut)
    (hj : ∀ z, z < samples → lutIndex junk idx (base + z) = .ok (f (s + z)))
    (hw : ∀ z, z < samples → f (s + z) * sizeLut < 2 ^ w) (hf : ∀ z, z < samples → f (s + z) < n) :
    hostPbs σ boot w sizeIn sizeLut sizeOut samples base junk idx (accs.map some)
      (words (fun i => xs[i]?) (s * sizeIn) (samples * sizeIn)) out =
    .ok (words (fun i => some (pbsWord boot sizeIn sizeLut sizeOut f accs xs i)) (s * sizeOut) (samples * sizeOut)) := by
  have hp := hσ (samples * sizeOut)
  have key : ∀ t, t < samples * sizeOut → ∀ o : DVec α,
      ((lutIndex junk idx (base + t / sizeOut)).bind fun p =>
        (readRange (accs.map some) (p * sizeLut % 2 ^ w) sizeLut).bind fun table =>
          (readRange (words (fun i => xs[i]?) (s * sizeIn) (samples * sizeIn)) (t / sizeOut * sizeIn) sizeIn).bind
            fun ct => DVec.write o (t / sizeOut * sizeOut + t % sizeOut)
              ((values table).bind fun table => (values ct).map fun ct => boot table ct (t % sizeOut))) =
      DVec.write o t (some (pbsWord boot sizeIn sizeLut sizeOut f accs xs (s * sizeOut + t))) := by
    intro t ht o
    have hzs : t / sizeOut < samples := Nat.div_lt_of_lt_mul (by rw [Nat.mul_comm]; exact ht)
    have hfz := hf _ hzs
    have hb2 : (f (s + t / sizeOut) + 1) * sizeLut ≤ n * sizeLut := Nat.mul_le_mul_right _ hfz
    rw [hj _ hzs, Out.bind_ok, Nat.mod_eq_of_lt (hw _ hzs),
      readRange_block _ _ _ (by rw [la]; exact hb2), Out.bind_ok, readRange_words _ _ _ _ _ hzs lx, Out.bind_ok,
      values_map_some, values_map_some, Nat.div_add_mod' t sizeOut]
    congr 1
    rw [pbsWord, show s * sizeOut + t = t + s * sizeOut from by omega, Nat.add_mul_div_right _ _ ho,
      Nat.add_mul_mod_self_right, show t / sizeOut + s = s + t / sizeOut from by omega]
    rfl
  obtain ⟨r, e, hl, h1, -⟩ := run_writes (samples * sizeOut)
    (fun t o => if t < samples * sizeOut then
      DVec.write o t (some (pbsWord boot sizeIn sizeLut sizeOut f accs xs (s * sizeOut + t))) else .ok o)
    id (fun t => some (pbsWord boot sizeIn sizeLut sizeOut f accs xs (s * sizeOut + t))) (samples * sizeOut)
    (fun t o _ => rfl) (fun t h => h) (fun t u _ _ h => h) _ (hp.nodup_iff.2 List.nodup_range) out lo
  have hmem : ∀ t, t ∈ σ (samples * sizeOut) ↔ t < samples * sizeOut := fun t => by
    rw [hp.mem_iff, List.mem_range]
  have e2 : hostPbs σ boot w sizeIn sizeLut sizeOut samples base junk idx (accs.map some)
      (words (fun i => xs[i]?) (s * sizeIn) (samples * sizeIn)) out = .ok r := by
    rw [← e, hostPbs]
    refine List.foldl_ext _ _ _ fun o t ht => ?_
    cases o with
    | ok o =>
      rw [Out.bind_ok, Out.bind_ok, if_pos ((hmem t).1 ht)]
      exact key t ((hmem t).1 ht) o
    | panic => rfl
    | exit => rfl
    | overrun => rfl
  rw [e2]
  congr 1
  apply List.ext_getElem?
  intro t
  rw [words_getElem?]
  split
  · next h => exact h1 t ((hmem t).2 h) h
  · next h => exact List.getElem?_eq_none (by omega)

/-- A launch whose first index is not that of a table. -/
theorem hostPbs_overrun (σ : Order) (hσ : σ.Complete) (boot : List α → List α → Nat → α)
    (w sizeIn sizeLut sizeOut samples base : Nat) (junk : Nat → Nat) (idx : DVec Nat) (luts input out : DVec α)
    (hs : 0 < samples * sizeOut)
    (hj : ∀ z, z < samples → ∃ p, lutIndex junk idx (base + z) = .ok p ∧ luts.length < p * sizeLut % 2 ^ w + sizeLut) :
    hostPbs σ boot w sizeIn sizeLut sizeOut samples base junk idx luts input out = .overrun := by
  have hp := hσ (samples * sizeOut)
  rw [hostPbs]
  cases hl : σ (samples * sizeOut) with
  | nil =>
    rw [hl] at hp
    have := hp.length_eq
    rw [List.length_nil, List.length_range] at this
    omega
  | cons t ts =>
    have ht : t < samples * sizeOut := by
      have : t ∈ σ (samples * sizeOut) := by rw [hl]; exact List.mem_cons_self
      exact List.mem_range.1 (hp.mem_iff.1 this)
    have hzs : t / sizeOut < samples := Nat.div_lt_of_lt_mul (by rw [Nat.mul_comm]; exact ht)
    obtain ⟨p, e, h⟩ := hj _ hzs
    rw [List.foldl_cons, Out.bind_ok]
    simp only [e, Out.bind_ok]
    rw [readRange, if_neg (by omega)]
    exact foldl_bind_ok_none ts _ .overrun (by intro a; simp)

end Verif.Cuda
