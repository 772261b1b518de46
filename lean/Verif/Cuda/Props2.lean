import Verif.Cuda.KernelLemmas
import Verif.Lwe.Lemmas
/-
C70: the linear operations on vectors of LWE ciphertexts on the GPUs compute what their CPU counterparts
compute, whatever the number of GPUs, and in whatever order the threads of the kernels run.

`A` is the number of GPUs, `n` the number of ciphertexts, `s` the secret key. `toGpus` and `fromGpus` are
the conversions of C69.
-/
namespace Verif.Cuda
open Lwe (phase)

variable {R : Type} [CommRing R]

/-- `vecs` is what the conversion of the words `xs` to the GPUs returned. -/
def OnGpus {R : Type} (A size : Nat) (xs : List R) (vecs : List (DVec R)) : Prop := toGpus A size xs = .ok vecs

/-- The vector of words given by a function. -/
def tabulate {R : Type} (len : Nat) (g : Nat → R) : List R := (List.range len).map g

omit [CommRing R] in
theorem tabulate_length (len : Nat) (g : Nat → R) : (tabulate len g).length = len := by simp [tabulate]

omit [CommRing R] in
theorem tabulate_getElem? (len : Nat) (g : Nat → R) (i : Nat) (h : i < len) :
    (tabulate len g)[i]? = some (g i) := by
  rw [tabulate, List.getElem?_map, List.getElem?_range h]; rfl

theorem tabulate_block (size n : Nat) (g : Nat → R) (i j : Nat) (hi : i < n) (hj : j < size) :
    (block size (tabulate (n * size) g) i).getD j 0 = g (i * size + j) := by
  have hb : i * size + j < n * size := by
    have : (i + 1) * size ≤ n * size := Nat.mul_le_mul_right _ hi
    rw [Nat.add_mul, Nat.one_mul] at this
    omega
  rw [block_getD _ _ _ _ _ hj, List.getD_eq_getElem?_getD, tabulate_getElem? _ _ _ hb]
  rfl

theorem getElem?_getD (xs : List R) (i : Nat) (h : i < xs.length) : xs[i]? = some (xs.getD i 0) := by
  rw [List.getD_eq_getElem?_getD, List.getElem?_eq_getElem h]; rfl

omit [CommRing R] in
/-- The vectors that reach at least one GPU each: the share of every GPU is larger than the remainder. -/
theorem onGpus_shares {A size n : Nat} {xs : List R} {vecs : List (DVec R)} (hA : 0 < A) (hz : 0 < size)
    (hAn : A ≤ n) (hfit : n * size < 2 ^ 32) (hx : xs.length = n * size) (h : OnGpus A size xs vecs) :
    n % A < n / A ∧ vecs = shares A size n fun i => xs[i]? := by
  by_cases hr : n % A < n / A
  · rw [OnGpus, toGpus_shares A size n xs hA hz hx hfit hAn hr] at h
    exact ⟨hr, (Out.ok.inj h).symm⟩
  · rw [OnGpus, toGpus_panic A size n xs hA hz hx hfit hAn (by omega)] at h
    cases h

theorem onGpus_result {A size n : Nat} (r : List R) (hA : 0 < A) (hz : 0 < size) (hAn : A ≤ n)
    (hfit : n * size < 2 ^ 32) (hr : n % A < n / A) (hl : r.length = n * size) :
    OnGpus A size r (shares A size n fun i => r[i]?) ∧
      (A ∣ n → fromGpus A size n 0 (shares A size n fun i => r[i]?) = .ok (r.map some)) := by
  refine ⟨toGpus_shares A size n r hA hz hl hfit hAn hr, fun hd => ?_⟩
  have h0 : n % A = 0 := Nat.mod_eq_zero_of_dvd hd
  have h := roundTrip_general A size n 0 r hA hz hl hfit hAn hr
  unfold roundTrip at h
  rw [toGpus_shares A size n r hA hz hl hfit hAn hr, Out.bind_ok, hl, Nat.mul_div_cancel _ hz] at h
  rw [h, h0, Nat.zero_mul, List.take_zero, List.append_nil, List.take_of_length_le]
  rw [List.length_map, hl, ← Nat.mul_assoc]
  apply le_of_eq
  congr 1
  have := Nat.div_add_mod n A
  omega

/-- The samples of a GPU are a positive number of words, at most all of them. -/
theorem share_pos {A size n : Nat} (i : Nat) (hi : i < A) (hz : 0 < size) (hr : n % A < n / A) :
    0 < (n / A + if i = A - 1 then n % A else 0) * size ∧
    (n / A + if i = A - 1 then n % A else 0) * size ≤ n * size := by
  refine ⟨Nat.mul_pos (by omega) hz, ?_⟩
  have := share_le_words A size n i hi
  omega

/-- C70, opposite: with at least as many ciphertexts as GPUs, the result holds the opposite of every
ciphertext; it can be read back when the number of GPUs divides `n`. Missing: fewer ciphertexts than GPUs
(see `C70_few_ciphertexts_violated`), and the remainders that C69 does not read back. -/
theorem C70_opposite_partial (σ : Nat → Order) (hσ : ∀ i, (σ i).Complete) (A n : Nat) (s xs os : List R)
    (vx vo : List (DVec R)) (hA : 0 < A) (hAn : A ≤ n) (hfit : n * (s.length + 1) ≤ 2 ^ 31 - 512)
    (lx : xs.length = n * (s.length + 1)) (lo : os.length = n * (s.length + 1))
    (hx : OnGpus A (s.length + 1) xs vx) (ho : OnGpus A (s.length + 1) os vo) :
    ∃ vr r, executeOpposite σ A (s.length + 1) n vx vo = .ok vr ∧ r.length = n * (s.length + 1) ∧
      OnGpus A (s.length + 1) r vr ∧
      (A ∣ n → fromGpus A (s.length + 1) n 0 vr = .ok (r.map some)) ∧
      ∀ i, i < n → phase s (block (s.length + 1) r i) = - phase s (block (s.length + 1) xs i) := by
  set size := s.length + 1 with hsz
  have hz : 0 < size := by omega
  have hf : n * size < 2 ^ 32 := by omega
  obtain ⟨hr, rfl⟩ := onGpus_shares hA hz hAn hf lx hx
  obtain ⟨_, rfl⟩ := onGpus_shares hA hz hAn hf lo ho
  set g : Nat → R := fun i => - xs.getD i 0
  set r := tabulate (n * size) g
  have hl : r.length = n * size := tabulate_length _ _
  obtain ⟨q1, q2⟩ := onGpus_result r hA hz hAn hf hr hl
  refine ⟨_, r, ?_, hl, q1, q2, ?_⟩
  · refine forGpus_shares A size n _ _ _ hA hAn fun i hi out hout => ?_
    obtain ⟨p1, p2⟩ := share_pos (n := n) i hi hz hr
    have p3 := share_le_words A size n i hi
    set m := n / A + if i = A - 1 then n % A else 0 with hm
    rw [getVec_shares A size n _ i hi, Out.bind_ok, hostNegation, ← hm]
    refine launch_words (σ i) (hσ i) _ _ _ p1 (by omega) _ out hout fun t o _ => ?_
    split
    · next ht =>
      rw [words_read _ _ _ _ ht, Out.bind_ok]
      congr 1
      rw [tabulate_getElem? _ _ _ (by omega), getElem?_getD xs _ (by omega)]
      rfl
    · rfl
  · intro i hi
    have e := Lwe.phase_lin (s := s) (x := block size xs i) (y := block size xs i)
      (z := block size r i) (-1) 0 fun j hj => by
        rw [tabulate_block size n g i j hi (by omega), block_getD _ _ _ _ _ (by omega)]
        simp only [g]; ring
    rw [e]; ring

/-- C70, addition. -/
theorem C70_addition_partial (σ : Nat → Order) (hσ : ∀ i, (σ i).Complete) (A n : Nat)
    (s xs ys os : List R) (vx vy vo : List (DVec R)) (hA : 0 < A) (hAn : A ≤ n)
    (hfit : n * (s.length + 1) ≤ 2 ^ 31 - 512) (lx : xs.length = n * (s.length + 1))
    (ly : ys.length = n * (s.length + 1)) (lo : os.length = n * (s.length + 1))
    (hx : OnGpus A (s.length + 1) xs vx) (hy : OnGpus A (s.length + 1) ys vy)
    (ho : OnGpus A (s.length + 1) os vo) :
    ∃ vr r, executeAddition σ A (s.length + 1) n vx vy vo = .ok vr ∧ r.length = n * (s.length + 1) ∧
      OnGpus A (s.length + 1) r vr ∧
      (A ∣ n → fromGpus A (s.length + 1) n 0 vr = .ok (r.map some)) ∧
      ∀ i, i < n → phase s (block (s.length + 1) r i) =
        phase s (block (s.length + 1) xs i) + phase s (block (s.length + 1) ys i) := by
  set size := s.length + 1 with hsz
  have hz : 0 < size := by omega
  have hf : n * size < 2 ^ 32 := by omega
  obtain ⟨hr, rfl⟩ := onGpus_shares hA hz hAn hf lx hx
  obtain ⟨_, rfl⟩ := onGpus_shares hA hz hAn hf ly hy
  obtain ⟨_, rfl⟩ := onGpus_shares hA hz hAn hf lo ho
  set g : Nat → R := fun i => xs.getD i 0 + ys.getD i 0
  set r := tabulate (n * size) g
  have hl : r.length = n * size := tabulate_length _ _
  obtain ⟨q1, q2⟩ := onGpus_result r hA hz hAn hf hr hl
  refine ⟨_, r, ?_, hl, q1, q2, ?_⟩
  · refine forGpus_shares A size n _ _ _ hA hAn fun i hi out hout => ?_
    obtain ⟨p1, p2⟩ := share_pos (n := n) i hi hz hr
    have p3 := share_le_words A size n i hi
    set m := n / A + if i = A - 1 then n % A else 0 with hm
    rw [getVec_shares A size n _ i hi, Out.bind_ok, getVec_shares A size n _ i hi, Out.bind_ok,
      hostAddition, ← hm]
    refine launch_words (σ i) (hσ i) _ _ _ p1 (by omega) _ out hout fun t o _ => ?_
    split
    · next ht =>
      rw [words_read _ _ _ _ ht, Out.bind_ok, words_read _ _ _ _ ht, Out.bind_ok]
      congr 1
      rw [tabulate_getElem? _ _ _ (by omega), getElem?_getD xs _ (by omega),
        getElem?_getD ys _ (by omega)]
      rfl
    · rfl
  · intro i hi
    have e := Lwe.phase_lin (s := s) (x := block size xs i) (y := block size ys i)
      (z := block size r i) 1 1 fun j hj => by
        rw [tabulate_block size n g i j hi (by omega), block_getD _ _ _ _ _ (by omega),
          block_getD _ _ _ _ _ (by omega)]
        simp only [g]; ring
    rw [e]; ring

/-- C70, multiplication of every ciphertext by its cleartext. -/
theorem C70_cleartext_multiplication_partial (σ : Nat → Order) (hσ : ∀ i, (σ i).Complete) (A n : Nat)
    (s xs cs os : List R) (vx vc vo : List (DVec R)) (hA : 0 < A) (hAn : A ≤ n)
    (hfit : n * (s.length + 1) ≤ 2 ^ 31 - 512) (lx : xs.length = n * (s.length + 1))
    (lc : cs.length = n) (lo : os.length = n * (s.length + 1))
    (hx : OnGpus A (s.length + 1) xs vx) (hc : OnGpus A 1 cs vc) (ho : OnGpus A (s.length + 1) os vo) :
    ∃ vr r, executeCleartextMultiplication σ A (s.length + 1) n vx vc vo = .ok vr ∧
      r.length = n * (s.length + 1) ∧ OnGpus A (s.length + 1) r vr ∧
      (A ∣ n → fromGpus A (s.length + 1) n 0 vr = .ok (r.map some)) ∧
      ∀ i, i < n → phase s (block (s.length + 1) r i) =
        phase s (block (s.length + 1) xs i) * cs.getD i 0 := by
  set size := s.length + 1 with hsz
  have hz : 0 < size := by omega
  have hf : n * size < 2 ^ 32 := by omega
  have hn1 : n * 1 ≤ n * size := Nat.mul_le_mul_left _ hz
  obtain ⟨hr, rfl⟩ := onGpus_shares hA hz hAn hf lx hx
  obtain ⟨_, rfl⟩ := onGpus_shares (n := n) hA Nat.one_pos hAn (by omega) (by omega) hc
  obtain ⟨_, rfl⟩ := onGpus_shares hA hz hAn hf lo ho
  set g : Nat → R := fun i => xs.getD i 0 * cs.getD (i / size) 0
  set r := tabulate (n * size) g
  have hl : r.length = n * size := tabulate_length _ _
  obtain ⟨q1, q2⟩ := onGpus_result r hA hz hAn hf hr hl
  refine ⟨_, r, ?_, hl, q1, q2, ?_⟩
  · refine forGpus_shares A size n _ _ _ hA hAn fun i hi out hout => ?_
    obtain ⟨p1, p2⟩ := share_pos (n := n) i hi hz hr
    have p3 := share_le_words A size n i hi
    have p4 := share_le A n i hi
    set m := n / A + if i = A - 1 then n % A else 0 with hm
    rw [getVec_shares A size n _ i hi, Out.bind_ok, getVec_shares A 1 n _ i hi, Out.bind_ok,
      hostCleartextMultiplication, ← hm]
    refine launch_words (σ i) (hσ i) _ _ _ p1 (by omega) _ out hout fun t o _ => ?_
    split
    · next ht =>
      have hd : t / size < m :=
        (Nat.div_lt_iff_lt_mul hz).2 ht
      rw [words_read _ _ _ _ ht, Out.bind_ok, words_read _ _ _ _ (by rw [Nat.mul_one]; exact hd),
        Out.bind_ok]
      congr 1
      have ed : (i * (n / A * size) + t) / size = i * (n / A * 1) + t / size := by
        rw [← Nat.mul_assoc, Nat.mul_comm _ size, Nat.mul_add_div hz, Nat.mul_one]
      rw [tabulate_getElem? _ _ _ (by omega), getElem?_getD xs _ (by omega),
        getElem?_getD cs _ (by rw [Nat.mul_one]; omega)]
      simp only [g, Option.bind_some, Option.map_some]
      rw [ed]
    · rfl
  · intro i hi
    have e := Lwe.phase_lin (s := s) (x := block size xs i) (y := block size xs i)
      (z := block size r i) (cs.getD i 0) 0 fun j hj => by
        rw [tabulate_block size n g i j hi (by omega), block_getD _ _ _ _ _ (by omega)]
        have : (i * size + j) / size = i := by
          rw [Nat.mul_comm, Nat.mul_add_div hz, Nat.div_eq_of_lt (by omega), Nat.add_zero]
        simp only [g]; rw [this]; ring
    rw [e]; ring

/-- C70, addition of a plaintext to every ciphertext. -/
theorem C70_plaintext_addition_partial (σ : Nat → Order) (hσ : ∀ i, (σ i).Complete) (A n : Nat)
    (s xs ps os : List R) (vx vp vo : List (DVec R)) (hA : 0 < A) (hAn : A ≤ n)
    (hfit : n * (s.length + 1) ≤ 2 ^ 31 - 512) (lx : xs.length = n * (s.length + 1))
    (lp : ps.length = n) (lo : os.length = n * (s.length + 1))
    (hx : OnGpus A (s.length + 1) xs vx) (hp : OnGpus A 1 ps vp) (ho : OnGpus A (s.length + 1) os vo) :
    ∃ vr r, executePlaintextAddition σ A (s.length + 1) n vx vp vo = .ok vr ∧
      r.length = n * (s.length + 1) ∧ OnGpus A (s.length + 1) r vr ∧
      (A ∣ n → fromGpus A (s.length + 1) n 0 vr = .ok (r.map some)) ∧
      ∀ i, i < n → phase s (block (s.length + 1) r i) =
        phase s (block (s.length + 1) xs i) + ps.getD i 0 := by
  set size := s.length + 1 with hsz
  have hz : 0 < size := by omega
  have hf : n * size < 2 ^ 32 := by omega
  have hn1 : n * 1 ≤ n * size := Nat.mul_le_mul_left _ hz
  obtain ⟨hr, rfl⟩ := onGpus_shares hA hz hAn hf lx hx
  obtain ⟨_, rfl⟩ := onGpus_shares (n := n) hA Nat.one_pos hAn (by omega) (by omega) hp
  obtain ⟨_, rfl⟩ := onGpus_shares hA hz hAn hf lo ho
  set g : Nat → R := fun i =>
    if i % size = size - 1 then xs.getD i 0 + ps.getD (i / size) 0 else xs.getD i 0 with hg
  set r := tabulate (n * size) g
  have hl : r.length = n * size := tabulate_length _ _
  obtain ⟨q1, q2⟩ := onGpus_result r hA hz hAn hf hr hl
  refine ⟨_, r, ?_, hl, q1, q2, ?_⟩
  · refine forGpus_shares A size n _ _ _ hA hAn fun i hi out hout => ?_
    obtain ⟨p1, p2⟩ := share_pos (n := n) i hi hz hr
    have p3 := share_le_words A size n i hi
    have p4 := share_le A n i hi
    set m := n / A + if i = A - 1 then n % A else 0 with hm
    have hmpos : 0 < m := by omega
    have hmle : m * 1 ≤ m * size := Nat.mul_le_mul_left _ hz
    rw [getVec_shares A size n _ i hi, Out.bind_ok, getVec_shares A 1 n _ i hi, Out.bind_ok,
      hostPlaintextAddition, if_neg (by omega), ← hm, memcpyDevice, words_length,
      if_pos ⟨by omega, le_refl _⟩, Out.bind_ok]
    have etake : (words (fun i => xs[i]?) (i * (n / A * size)) (m * size)).take (m * size) ++
        List.drop (m * size) out = words (fun i => xs[i]?) (i * (n / A * size)) (m * size) := by
      rw [List.take_of_length_le (by rw [words_length]), List.drop_eq_nil_of_le (by omega),
        List.append_nil]
    rw [etake]
    have hpos : ∀ t, t < m → t * size + (size - 1) < m * size := by
      intro t ht
      have : (t + 1) * size ≤ m * size := Nat.mul_le_mul_right _ ht
      rw [Nat.add_mul, Nat.one_mul] at this
      omega
    have key : ∀ kernel : Nat → DVec R → Out (DVec R),
        (∀ t o, o.length = m * size → kernel t o = if t < m then
          DVec.write o (t * size + (size - 1))
            (some (g (i * (n / A * size) + (t * size + (size - 1))))) else .ok o) →
        launch (σ i) m kernel (words (fun i => xs[i]?) (i * (n / A * size)) (m * size)) =
          .ok (words (fun i => r[i]?) (i * (n / A * size)) (m * size)) := by
      intro kernel hk
      obtain ⟨r', e', hl', h1, h2⟩ := launch_writes (σ i) (hσ i) m hmpos (by omega) kernel
        (fun t => t * size + (size - 1))
        (fun t => some (g (i * (n / A * size) + (t * size + (size - 1)))))
        (words (fun i => xs[i]?) (i * (n / A * size)) (m * size))
        (fun t o ho => hk t o (by rw [ho, words_length]))
        (fun t ht => by rw [words_length]; exact hpos t ht)
        (fun t u _ _ h => Nat.eq_of_mul_eq_mul_right hz (by omega))
      rw [e']
      congr 1
      apply List.ext_getElem?
      intro k
      rw [words_getElem?]
      split
      · next hk =>
        rw [tabulate_getElem? _ _ _ (by omega)]
        have emod : (i * (n / A * size) + k) % size = k % size := by
          rw [← Nat.mul_assoc, Nat.mul_comm _ size, Nat.mul_add_mod]
        have hdm := Nat.div_add_mod k size
        by_cases hkm : k % size = size - 1
        · have hkm' : k / size < m := (Nat.div_lt_iff_lt_mul hz).2 hk
          have ek : k = k / size * size + (size - 1) := by rw [Nat.mul_comm] at hdm; omega
          have := h1 (k / size) hkm'
          rw [← ek] at this
          exact this
        · rw [h2 k, words_getElem?, if_pos hk, getElem?_getD xs _ (by omega)]
          · simp only [hg]; rw [if_neg (by rw [emod]; exact hkm)]
          · intro t ht he
            apply hkm
            rw [← he, Nat.mul_comm, Nat.mul_add_mod, Nat.mod_eq_of_lt (by omega)]
      · next hk => exact List.getElem?_eq_none (by rw [hl', words_length]; omega)
    refine key _ fun t o _ => ?_
    by_cases ht : t < m
    · have hb := hpos t ht
      have em : (i * (n / A * size) + (t * size + (size - 1))) % size = size - 1 := by
        rw [← Nat.mul_assoc, ← Nat.add_assoc, ← Nat.add_mul, Nat.mul_comm, Nat.mul_add_mod,
          Nat.mod_eq_of_lt (by omega)]
      have ed : (i * (n / A * size) + (t * size + (size - 1))) / size = i * (n / A * 1) + t := by
        rw [← Nat.mul_assoc, ← Nat.add_assoc, ← Nat.add_mul, Nat.mul_comm, Nat.mul_add_div hz,
          Nat.div_eq_of_lt (show size - 1 < size by omega), Nat.add_zero, Nat.mul_one]
      rw [if_pos ht, if_pos ht, words_read _ _ _ _ hb, Out.bind_ok,
        words_read _ _ _ _ (by rw [Nat.mul_one]; exact ht), Out.bind_ok]
      congr 1
      rw [getElem?_getD xs _ (by omega), getElem?_getD ps _ (by rw [Nat.mul_one]; omega)]
      simp only [Option.bind_some, Option.map_some, hg]
      rw [if_pos em, ed]
    · rw [if_neg ht, if_neg ht]
  · intro i hi
    have hblk : ∀ j, j < size → (block size r i).getD j 0 =
        if j = size - 1 then (block size xs i).getD j 0 + ps.getD i 0
        else (block size xs i).getD j 0 := by
      intro j hj
      rw [tabulate_block size n g i j hi hj, block_getD _ _ _ _ _ hj]
      simp only [hg]
      rw [Nat.mul_comm i size, Nat.mul_add_mod, Nat.mod_eq_of_lt hj, Nat.mul_add_div hz,
        Nat.div_eq_of_lt hj, Nat.add_zero]
    unfold Lwe.phase
    rw [hblk s.length (by omega), if_pos (by omega),
      Finset.sum_congr rfl fun j hj => by
        rw [hblk j (by have := Finset.mem_range.1 hj; omega),
          if_neg (by have := Finset.mem_range.1 hj; omega)]]
    ring

/-- The hypotheses of the theorems above are met, for the thread orders of the grid: 5 ciphertexts of
2 words on 2 GPUs. -/
example : Order.Complete (fun m => List.range m) ∧ Order.Complete (fun m => (List.range m).reverse) ∧
    (∃ v, OnGpus 2 2 (List.replicate 10 (1 : Int)) v) ∧
    executeAddition (fun _ => List.range) 2 2 2 [[some 1, some 2], [some 3, some 4]]
      [[some 10, some 20], [some 30, some 40]] [[none, none], [none, none]] =
      .ok [[some (11 : Int), some 22], [some 33, some 44]] := by
  refine ⟨fun _ => List.Perm.refl _, fun m => List.reverse_perm _, ?_, by decide +kernel⟩
  exact ⟨_, toGpus_shares 2 2 5 _ (by norm_num) (by norm_num) (by simp) (by norm_num) (by norm_num)
    (by norm_num)⟩

/-- C70 is violated: with fewer ciphertexts than GPUs every linear operation terminates the process: the
share of each GPU is computed with all the GPUs and is zero, and CUDA refuses a launch without threads. -/
theorem C70_few_ciphertexts_violated (σ : Nat → Order) (A n size : Nat)
    (xs ys cs os : List R) (vx vy vc vo : List (DVec R)) (hz : 0 < size) (hn : 0 < n) (hlt : n < A)
    (hfit : n * size < 2 ^ 32)
    (lx : xs.length = n * size) (ly : ys.length = n * size) (lc : cs.length = n)
    (lo : os.length = n * size) (hx : OnGpus A size xs vx) (hy : OnGpus A size ys vy)
    (hc : OnGpus A 1 cs vc) (ho : OnGpus A size os vo) :
    executeOpposite σ A size n vx vo = .exit ∧ executeAddition σ A size n vx vy vo = .exit ∧
    executePlaintextAddition σ A size n vx vc vo = .exit ∧
    executeCleartextMultiplication σ A size n vx vc vo = .exit := by
  have hm : min n A = n := by omega
  have hn1 : n * 1 ≤ n * size := Nat.mul_le_mul_left _ hz
  have key : ∀ (sz : Nat) (zs : List R) (vz : List (DVec R)), 0 < sz → zs.length = n * sz →
      n * sz < 2 ^ 32 → OnGpus A sz zs vz → ∃ v vs, vz = v :: vs := by
    intro sz zs vz h0 hl hf hv
    rw [OnGpus, toGpus_ok A sz n zs (by omega) h0 hn hl hf
      (by rw [hm, Nat.mod_self, Nat.div_self hn]; exact Nat.one_pos)] at hv
    have e := Out.ok.inj hv
    have hlen : vz.length = n := by rw [← e, List.length_map, layout_length, hm]
    cases vz with
    | nil => simp at hlen; omega
    | cons v vs => exact ⟨v, vs, rfl⟩
  obtain ⟨v1, w1, rfl⟩ := key size xs vx hz lx hfit hx
  obtain ⟨v2, w2, rfl⟩ := key size ys vy hz ly hfit hy
  obtain ⟨v3, w3, rfl⟩ := key 1 cs vc Nat.one_pos (by omega) (by omega) hc
  obtain ⟨v4, w4, rfl⟩ := key size os vo hz lo hfit ho
  refine ⟨?_, ?_, ?_, ?_⟩ <;> apply forGpus_few A n _ _ _ hn hlt <;>
    simp only [getVec, List.getElem?_cons_zero, Out.bind_ok]
  · rw [hostNegation, Nat.zero_mul]; exact launch_zero _ _ _
  · rw [hostAddition, Nat.zero_mul]; exact launch_zero _ _ _
  · rw [hostPlaintextAddition, Nat.zero_mul, if_neg (by norm_num), memcpyDevice,
      if_pos ⟨Nat.zero_le _, Nat.zero_le _⟩, Out.bind_ok]
    exact launch_zero _ _ _
  · rw [hostCleartextMultiplication, Nat.zero_mul]; exact launch_zero _ _ _

/-- One ciphertext on two GPUs reaches the GPUs. -/
example : ∃ v, OnGpus 2 3 [1, 2, (3 : Int)] v :=
  ⟨_, toGpus_ok 2 3 1 _ (by norm_num) (by norm_num) (by norm_num) rfl (by norm_num) (by norm_num)⟩

end Verif.Cuda
