import Verif.Fft.ParallelLemmas
import Verif.Fft.Props
import Verif.Fft.Props2
import Verif.Pbs.Examples
import Verif.Engine.ChecksProps
/-
Property C93: the parallel bootstrap of a vector is the bootstrap of each ciphertext, for every schedule.
-/
namespace Verif.Fft.Parallel
open Verif.Engine Verif.Pbs Verif.Glwe Verif.Float Verif.Poly Verif.Decomp

variable {w : Nat}

/-- Specification: the bootstrap of ciphertext `i` alone, with the parameters of the key. -/
def single (c : Call w) (out : List (BitVec w)) (i : Nat) : Option (List (BitVec w)) :=
  bootstrap (cmuxFft c.T (2 ^ c.logN) c.k c.b c.l) (2 ^ c.logN) c.logN (block (c.k * 2 ^ c.logN + 1) out i)
    (block (c.inDim + 1) c.input i) (block ((c.k + 1) * 2 ^ c.logN) c.acc i) (bskGgsws c.T (2 ^ c.logN) c.k c.l c.bsk)

/-- Specification: the dimensions of the arguments agree with the key. -/
structure Fit (c : Call w) : Prop where
  inp : c.lweSize = c.inDim + 1
  out : c.outSize = c.k * 2 ^ c.logN + 1
  k : c.accK = c.k
  N : c.accN = 2 ^ c.logN
  size : 5 ≤ c.logN

theorem sampleExtract_length {N : Nat} (hN : 0 < N) (ct lwe r : List (BitVec w)) (n : Nat)
    (h : Glwe.sampleExtract N ct lwe n = some r) : r.length = lwe.length := by
  rw [Glwe.sampleExtract] at h
  split at h
  · cases h
  · rename_i h0
    split at h
    · cases h
    · split at h
      · rename_i hm
        cases h
        have e : ((chunks N (maskOf N ct)).map (extractPoly (N - n - 1))).flatten.length = (maskOf N ct).length := by
          conv_rhs => rw [← chunks_flatten N hN (maskOf N ct)]
          rw [List.length_flatten, List.length_flatten, List.map_map]
          congr 1
          apply List.map_congr_left
          intro p _
          simp [extractPoly, Poly.rotateLeft, Poly.negFirst]
          omega
        rw [List.length_append, e, List.length_singleton]
        omega
      · cases h

theorem single_length {c : Call w} {out r : List (BitVec w)} {i : Nat} (h : single c out i = some r) :
    r.length = (block (c.k * 2 ^ c.logN + 1) out i).length := by
  rw [single, bootstrap] at h
  split at h
  · cases h
  · exact sampleExtract_length (by positivity) _ _ _ _ h

theorem fft_ok {N : Nat} (h : ∃ l, 5 ≤ l ∧ N = 2 ^ l) : Checks.fft N = .ok () := by
  obtain ⟨l, hl, rfl⟩ := h
  rw [Checks.fft, if_pos]
  refine ⟨⟨l, rfl⟩, ?_⟩
  calc 32 = 2 ^ 5 := rfl
    _ ≤ 2 ^ l := Nat.pow_le_pow_right (by norm_num) hl

/-- When the dimensions agree, the checks of each item pass. -/
theorem item_eq {c : Call w} {nIn nAcc : Nat} (hwf : c.WellFormed nIn nAcc) (hf : Fit c) (out : List (BitVec w)) (i : Nat)
    (h1 : i < nIn) (h2 : i < nAcc) (h3 : (i + 1) * c.outSize ≤ out.length) :
    c.item i (block c.outSize out i) = single c out i := by
  have l1 : (block c.lweSize c.input i).length = c.lweSize :=
    block_length _ _ _ (by rw [hwf.hin]; exact Nat.mul_le_mul_right _ h1)
  have l2 : (block ((c.accK + 1) * c.accN) c.acc i).length = (c.accK + 1) * c.accN :=
    block_length _ _ _ (by rw [hwf.hacc]; exact Nat.mul_le_mul_right _ h2)
  have l3 : (block c.outSize out i).length = c.outSize := block_length _ _ _ h3
  rw [Call.item]
  rw [fft_ok ⟨c.logN, hf.size, hf.N⟩]
  simp only [l1, l2, l3]
  rw [Nat.mul_div_cancel _ (by rw [hf.N]; positivity)]
  have hc : Checks.lweCiphertextDiscardingBootstrap ⟨c.outSize - 1⟩ ⟨c.lweSize - 1⟩ ⟨c.accK + 1 - 1, c.accN⟩ c.key
      = .ok () := by
    simp [Checks.lweCiphertextDiscardingBootstrap, checks, bad, Call.key, M.Bsk.outDim, hf.inp, hf.out, hf.k,
      hf.N]
  rw [hc, single, hf.inp, hf.out, hf.k, hf.N]

/-- C93, the checks: the checked call is accepted exactly when the dimensions agree with the key, the size is supported,
and there are as many inputs, accumulators and outputs. -/
theorem C93_checks (c : Call w) (nIn nAcc nOut : Nat) (hwf : c.WellFormed nIn nAcc) :
    c.check (nOut * c.outSize) = .ok () ↔ Fit c ∧ nAcc = nIn ∧ nIn = nOut := by
  have e1 : c.inCount = nIn := by rw [Call.inCount, hwf.hin, Nat.mul_div_cancel _ (by have := hwf.hin1; omega)]
  have e2 : c.accCount = nAcc := by
    rw [Call.accCount, hwf.hacc, Nat.mul_div_cancel]
    exact Nat.mul_pos (by omega) hwf.hacc1
  have e3 : nOut * c.outSize / c.outSize = nOut := Nat.mul_div_cancel _ (by have := hwf.hout1; omega)
  have a1 := hwf.hin1
  have a2 := hwf.hout1
  rw [Call.check, e1, e2, e3]
  constructor
  · intro h
    split at h
    · rename_i h1
      simp only [Checks.lweCiphertextVectorDiscardingBootstrap, checks_bad, checks_nil, Call.key, M.Bsk.outDim, bne_iff_ne,
        ne_eq] at h1
      rw [Checks.fft] at h
      split at h
      · rename_i hp
        split at h1; · cases h1
        split at h1; · cases h1
        split at h1; · cases h1
        split at h1; · cases h1
        split at h1; · cases h1
        split at h1; · cases h1
        rename_i g1 g2 g3 g4 g5 g6
        rw [not_not] at g1 g2 g3 g4 g5 g6
        refine ⟨⟨by omega, by omega, g3.symm, g4.symm, ?_⟩, g5, g6⟩
        by_contra hc
        have : 2 ^ c.logN ≤ 2 ^ 4 := Nat.pow_le_pow_right (by norm_num) (by omega)
        have := hp.2
        omega
      · cases h
    · rename_i hne
      exact absurd h (by intro h; exact hne _ h)
  · rintro ⟨hf, h1, h2⟩
    have : Checks.lweCiphertextVectorDiscardingBootstrap ⟨c.outSize - 1, nOut⟩ ⟨c.lweSize - 1, nIn⟩ ⟨c.accK, c.accN, nAcc⟩
        c.key = .ok () := by
      simp [Checks.lweCiphertextVectorDiscardingBootstrap, checks, bad, Call.key, M.Bsk.outDim, hf.inp, hf.out,
        hf.k, hf.N, h1, h2]
    rw [this]
    exact fft_ok ⟨c.logN, hf.size, hf.N⟩

/-- The workers that are left, and the steps that are left, after `m` steps. -/
theorem steps_left {c : Call w} {n : Nat} {out0 : List (BitVec w)} {R : Nat → List (BitVec w)} {threads : Nat}
    (hR : ∀ i, i < n → c.item i (block c.outSize out0 i) = some (R i) ∧ (R i).length = c.outSize)
    (hlen : n * c.outSize ≤ out0.length)
    (hn : min (min c.inCount (out0.length / c.outSize)) c.accCount = n) {m : Nat} {s : State w}
    (h : Steps c m (c.start out0 threads) s) :
    Inv c n out0 R s ∧ s.left c.outSize + m = n * (c.outSize + 2) ∧ s.workers.length = threads ∧
      ∀ (t i pos : Nat) (r : List (BitVec w)), s.workers[t]? = some (Worker.busy i pos r) → pos ≤ c.outSize := by
  generalize hs : c.start out0 threads = s0 at h
  induction h with
  | refl s =>
    subst hs
    refine ⟨inv_start c out0 R threads n hn, ?_, by simp [Call.start], fun t i pos r h => ?_⟩
    · simp [State.left, Call.start, hn, Worker.left]
    · simp only [Call.start, List.getElem?_replicate] at h
      split at h <;> cases h
  | step h1 h2 ih =>
    obtain ⟨a, b, d, e⟩ := ih hs
    obtain ⟨f, g⟩ := left_step hR a e h2
    refine ⟨inv_step hR hlen a h2, by omega, ?_, g⟩
    rw [← d]
    cases h2 <;> simp

/-- C93, the call without the checks of the vectors, for vectors of any numbers of ciphertexts: as many ciphertexts as all
vectors have are bootstrapped, as if one after the other; no schedule of any number of threads panics, runs for ever, gets
stuck, or reaches another result. -/
theorem C93_unchecked (c : Call w) (nIn nAcc nOut threads : Nat) (out : List (BitVec w)) (hwf : c.WellFormed nIn nAcc)
    (hout : out.length = nOut * c.outSize) (hf : Fit c) (n : Nat) (hn : n = min (min nIn nOut) nAcc)
    (R : Nat → List (BitVec w)) (hsingle : ∀ i, i < n → single c out i = some (R i)) (m : Nat) (s : State w)
    (h : Steps c m (c.start out threads) s) :
    s.panicked = false ∧ m ≤ n * (c.outSize + 2) ∧ (0 < threads → ¬ s.Final → ∃ s', Step c s s') ∧
    (s.Final → m = n * (c.outSize + 2) ∧ s.out.length = out.length ∧ (∀ i, i < n → block c.outSize s.out i = R i) ∧
      ∀ q, n * c.outSize ≤ q → s.out[q]? = out[q]?) := by
  have hS := hwf.hout1
  have e1 : c.inCount = nIn := by rw [Call.inCount, hwf.hin, Nat.mul_div_cancel _ (by have := hwf.hin1; omega)]
  have e2 : c.accCount = nAcc := by
    rw [Call.accCount, hwf.hacc, Nat.mul_div_cancel]
    exact Nat.mul_pos (by omega) hwf.hacc1
  have e3 : out.length / c.outSize = nOut := by rw [hout]; exact Nat.mul_div_cancel _ (by omega)
  have hb : ∀ i, i < n → (i + 1) * c.outSize ≤ out.length := fun i hi => by
    rw [hout]; exact Nat.mul_le_mul_right _ (by omega)
  have hR : ∀ i, i < n → c.item i (block c.outSize out i) = some (R i) ∧ (R i).length = c.outSize := by
    intro i hi
    refine ⟨by rw [item_eq hwf hf out i (by omega) (by omega) (hb i hi)]; exact hsingle i hi, ?_⟩
    rw [single_length (hsingle i hi), ← hf.out]
    exact block_length _ _ _ (hb i hi)
  have hlen : n * c.outSize ≤ out.length := by rw [hout]; exact Nat.mul_le_mul_right _ (by omega)
  obtain ⟨hI, hm, hw, hp⟩ := steps_left hR hlen (by rw [e1, e2, e3, hn]) h
  refine ⟨hI.ok, by omega, fun ht hnf => ?_, fun hfin => ⟨?_, hI.len, fun i hi => ?_, hI.rest⟩⟩
  · by_cases hb : ∃ (t i pos : Nat) (r : List (BitVec w)), s.workers[t]? = some (Worker.busy i pos r)
    · obtain ⟨t, i, pos, r, hb⟩ := hb
      rcases hx : r[pos]? with _ | x
      · exact ⟨_, Step.finish s t i pos r hb (List.getElem?_eq_none_iff.1 hx)⟩
      · exact ⟨_, Step.write s t i pos r x hb hx⟩
    · have hidle : ∀ x ∈ s.workers, x = .idle := by
        intro x hx
        obtain ⟨t, hx⟩ := List.mem_iff_getElem?.1 hx
        cases x with
        | idle => rfl
        | busy i pos r => exact absurd ⟨t, i, pos, r, hx⟩ hb
      have htodo : s.todo ≠ [] := fun h => hnf ⟨h, hidle⟩
      obtain ⟨i, hi⟩ := List.exists_mem_of_ne_nil _ htodo
      have h0 : s.workers[0]? = some .idle := by
        rw [List.getElem?_eq_getElem (by omega), hidle _ (List.getElem_mem _)]
      exact ⟨_, Step.take s 0 i (R i) h0 hi (by rw [block_eq_of (hI.todo i hi)]; exact (hR i (hI.lt i hi)).1)⟩
  · have : s.left c.outSize = 0 := by
      rw [State.left, hfin.1]
      simp only [List.length_nil, Nat.zero_mul, Nat.zero_add]
      apply List.sum_eq_zero
      intro x hx
      obtain ⟨y, hy, rfl⟩ := List.mem_map.1 hx
      rw [hfin.2 y hy]; rfl
    omega
  · have hd := hI.done i hi (by rw [hfin.1]; simp) (fun t pos r h => by
      have := hfin.2 _ (List.mem_of_getElem? h)
      cases this)
    apply List.ext_getElem?
    intro j
    by_cases hj : j < c.outSize
    · rw [block_getElem? _ _ _ _ hj, hd j hj]
    · rw [List.getElem?_eq_none (by simp only [block, List.length_take]; omega),
        List.getElem?_eq_none (by rw [(hR i hi).2]; omega)]

/-- C93: an accepted checked call, on any number of threads and for every schedule, bootstraps every ciphertext of the
vector as the engine for one ciphertext does; it does not panic, ends, and writes nothing else. -/
theorem C93_parallel (c : Call w) (nIn nAcc nOut threads : Nat) (out : List (BitVec w)) (hwf : c.WellFormed nIn nAcc)
    (hout : out.length = nOut * c.outSize) (hcheck : c.check out.length = .ok ())
    (R : Nat → List (BitVec w)) (hsingle : ∀ i, i < nOut → single c out i = some (R i)) (m : Nat) (s : State w)
    (h : Steps c m (c.start out threads) s) :
    s.panicked = false ∧ m ≤ nOut * (c.outSize + 2) ∧ (0 < threads → ¬ s.Final → ∃ s', Step c s s') ∧
    (s.Final → s.out = ((List.range nOut).map R).flatten) := by
  rw [hout] at hcheck
  obtain ⟨hf, h1, h2⟩ := (C93_checks c nIn nAcc nOut hwf).1 hcheck
  obtain ⟨a, b, d, e⟩ := C93_unchecked c nIn nAcc nOut threads out hwf hout hf nOut (by omega) R hsingle m s h
  refine ⟨a, b, d, fun hfin => ?_⟩
  obtain ⟨-, hl, hb, -⟩ := e hfin
  rw [← chunks_flatten c.outSize hwf.hout1 s.out, chunks_eq c.outSize hwf.hout1 nOut s.out (by rw [hl, hout])]
  congr 1
  apply List.map_congr_left
  intro i hi
  exact hb i (List.mem_range.1 hi)

/-- C93: with at least one thread, an accepted call has a complete run (`C93_parallel`: every run can be completed, and all
complete runs have the same result). -/
theorem C93_completes (c : Call w) (nIn nAcc nOut threads : Nat) (ht : 0 < threads) (out : List (BitVec w))
    (hwf : c.WellFormed nIn nAcc) (hout : out.length = nOut * c.outSize) (hcheck : c.check out.length = .ok ())
    (R : Nat → List (BitVec w)) (hsingle : ∀ i, i < nOut → single c out i = some (R i)) :
    ∃ m s, Steps c m (c.start out threads) s ∧ s.Final ∧ s.out = ((List.range nOut).map R).flatten := by
  have hall := C93_parallel c nIn nAcc nOut threads out hwf hout hcheck R hsingle
  have key : ∀ m, (∃ m s, Steps c m (c.start out threads) s ∧ s.Final) ∨ ∃ s, Steps c m (c.start out threads) s := by
    intro m
    induction m with
    | zero => exact .inr ⟨_, .refl _⟩
    | succ m ih =>
      rcases ih with h | ⟨s, h⟩
      · exact .inl h
      · by_cases hf : s.Final
        · exact .inl ⟨m, s, h, hf⟩
        · obtain ⟨s', h'⟩ := (hall m s h).2.2.1 ht hf
          exact .inr ⟨s', h.step h'⟩
  rcases key (nOut * (c.outSize + 2) + 1) with ⟨m, s, h, hf⟩ | ⟨s, h⟩
  · exact ⟨m, s, h, hf, (hall m s h).2.2.2 hf⟩
  · have := (hall _ s h).2.1
    omega

/-- An item is bootstrapped only if the dimensions agree. -/
theorem item_some {c : Call w} {nIn nAcc : Nat} (hwf : c.WellFormed nIn nAcc) (out r : List (BitVec w)) (i : Nat)
    (h1 : i < nIn) (h2 : i < nAcc) (h3 : (i + 1) * c.outSize ≤ out.length)
    (h : c.item i (block c.outSize out i) = some r) : Fit c := by
  have l1 : (block c.lweSize c.input i).length = c.lweSize :=
    block_length _ _ _ (by rw [hwf.hin]; exact Nat.mul_le_mul_right _ h1)
  have l2 : (block ((c.accK + 1) * c.accN) c.acc i).length = (c.accK + 1) * c.accN :=
    block_length _ _ _ (by rw [hwf.hacc]; exact Nat.mul_le_mul_right _ h2)
  have l3 : (block c.outSize out i).length = c.outSize := block_length _ _ _ h3
  have a1 := hwf.hin1
  have a2 := hwf.hout1
  rw [Call.item] at h
  simp only [l1, l2, l3] at h
  rw [Nat.mul_div_cancel _ (by have := hwf.hacc1; omega)] at h
  split at h
  · rename_i hfft
    split at h
    · rename_i hc
      simp only [Checks.lweCiphertextDiscardingBootstrap, checks_bad, checks_nil, Call.key, M.Bsk.outDim, bne_iff_ne,
        ne_eq] at hc
      split at hc; · cases hc
      split at hc; · cases hc
      split at hc; · cases hc
      split at hc; · cases hc
      rename_i g1 g2 g3 g4
      rw [not_not] at g1 g2 g3 g4
      refine ⟨by omega, by omega, by omega, g2, ?_⟩
      by_contra hcc
      have : 2 ^ c.logN ≤ 2 ^ 4 := Nat.pow_le_pow_right (by norm_num) (by omega)
      rw [Checks.fft] at hfft
      split at hfft
      · rename_i hp
        have := hp.2
        omega
      · cases hfft
    · cases h
  · cases h

/-- C93, the call without checks on vectors whose dimensions do not fit the key: no word of the output is ever written, and
as soon as a thread takes an item the call panics. -/
theorem C93_unchecked_mismatch (c : Call w) (nIn nAcc nOut threads : Nat) (out : List (BitVec w))
    (hwf : c.WellFormed nIn nAcc) (hout : out.length = nOut * c.outSize) (hf : ¬ Fit c) (m : Nat) (s : State w)
    (h : Steps c m (c.start out threads) s) : s.out = out ∧ (s.panicked = true ↔ 0 < m) := by
  have hS := hwf.hout1
  have e1 : c.inCount = nIn := by rw [Call.inCount, hwf.hin, Nat.mul_div_cancel _ (by have := hwf.hin1; omega)]
  have e2 : c.accCount = nAcc := by
    rw [Call.accCount, hwf.hacc, Nat.mul_div_cancel]
    exact Nat.mul_pos (by omega) hwf.hacc1
  have e3 : out.length / c.outSize = nOut := by rw [hout]; exact Nat.mul_div_cancel _ (by omega)
  suffices hg : s.out = out ∧ (s.panicked = true ↔ 0 < m) ∧ (∀ x ∈ s.workers, x = .idle) ∧
      ∀ i ∈ s.todo, i < min (min nIn nOut) nAcc from ⟨hg.1, hg.2.1⟩
  generalize hs : c.start out threads = s0 at h
  induction h with
  | refl s =>
    subst hs
    refine ⟨rfl, by simp [Call.start], fun x hx => List.eq_of_mem_replicate hx, fun i hi => ?_⟩
    simp only [Call.start, e1, e2, e3] at hi
    exact List.mem_range.1 hi
  | step h1 h2 ih =>
    obtain ⟨a, b, d, e⟩ := ih hs
    cases h2 with
    | take t i r ht hi h =>
      have hi' := e i hi
      rw [a] at h
      exact absurd (item_some hwf out r i (by omega) (by omega)
        (by rw [hout]; exact Nat.mul_le_mul_right _ (by omega)) h) hf
    | fail t i ht hi h =>
      exact ⟨a, by simp, d, fun j hj => e j (List.mem_of_mem_erase hj)⟩
    | write t i pos r x ht hx => cases d _ (List.mem_of_getElem? ht)
    | finish t i pos r ht hp => cases d _ (List.mem_of_getElem? ht)

/-- C93, with the Fourier transform of the engine: every output of an accepted call decrypts to the table of its
accumulator at the phase of its input. Partial: as `C63_bootstrap_partial`. -/
theorem C93_lookup_partial (hw : w = 32 ∨ w = 64) (c : Call w) (nIn nAcc nOut threads : Nat) (out : List (BitVec w))
    (hwf : c.WellFormed nIn nAcc) (hout : out.length = nOut * c.outSize) (hcheck : c.check out.length = .ok ())
    (h40 : c.logN ≤ 40) (cpu : Cpu) (hcpu : w = 64 → backwardIsa 64 cpu ≠ .avx512) (plan : Plan) (ε : ℝ) (hε : 0 ≤ ε)
    (hplan : PlanAccurate (2 ^ (c.logN - 1)) plan ε) (sinCos : F64 → F64 × F64) (hsc : SinCosAccurate sinCos)
    (hT : c.T = fftTransform w cpu plan (twisties sinCos (2 ^ (c.logN - 1))))
    (hκ : ε + ((c.l * (c.k + 1) : ℕ) + 1) / 2 ^ 48 ≤ 1 / 100) (S E : ℤ) (hv : ValidParams w c.b c.l) (hS0 : 0 ≤ S)
    (hE : 0 ≤ E) (lweKey key : List (BitVec w)) (hk : KeyFits (2 ^ c.logN) c.k key) (hS : KeyBound S key)
    (hs : Lwe.BinaryKey lweKey) (hdim : lweKey.length = c.inDim)
    (hbsk : BskEnc (2 ^ c.logN) c.k c.b c.l lweKey key c.bsk E) (table : Nat → List (BitVec w))
    (htable : ∀ i, i < nOut → (table i).length = 2 ^ c.logN ∧
      glwePhase (2 ^ c.logN) c.k key (block ((c.k + 1) * 2 ^ c.logN) c.acc i) = toRq (2 ^ c.logN) (table i))
    (ht : 0 < threads) :
    (∃ m s, Steps c m (c.start out threads) s ∧ s.Final) ∧ ∀ m s, Steps c m (c.start out threads) s →
    s.panicked = false ∧ m ≤ nOut * (c.outSize + 2) ∧ (¬ s.Final → ∃ s', Step c s s') ∧
    (s.Final → s.out.length = out.length ∧ ∀ i, i < nOut →
      Lwe.Fits key (block (c.k * 2 ^ c.logN + 1) s.out i) ∧
      ∀ d, IsSwitchedPhase c.logN lweKey (block (c.inDim + 1) c.input i) d →
        |(Lwe.phase key (block (c.k * 2 ^ c.logN + 1) s.out i) - ext (2 ^ c.logN) (table i) d).toInt| ≤
          lweKey.length * epBound w (2 ^ c.logN) c.k c.b c.l S E
            (fftError w (2 ^ c.logN) (c.l * (c.k + 1)) (2 ^ (c.b - 1)) ε) 1) := by
  have hcheck' := hcheck
  rw [hout] at hcheck'
  obtain ⟨hf, h1, h2⟩ := (C93_checks c nIn nAcc nOut hwf).1 hcheck'
  have key1 : ∀ i, i < nOut → ∃ r, single c out i = some r ∧ Lwe.Fits key r ∧
      ∀ d, IsSwitchedPhase c.logN lweKey (block (c.inDim + 1) c.input i) d →
        |(Lwe.phase key r - ext (2 ^ c.logN) (table i) d).toInt| ≤
          lweKey.length * epBound w (2 ^ c.logN) c.k c.b c.l S E
            (fftError w (2 ^ c.logN) (c.l * (c.k + 1)) (2 ^ (c.b - 1)) ε) 1 := by
    intro i hi
    have := C63_bootstrap_partial hw c.logN c.k c.b c.l (by have := hf.size; omega) h40 hwf.hlog cpu hcpu plan ε hε hplan sinCos
      hsc hκ S E hv hS0 hE lweKey key c.bsk (block ((c.k + 1) * 2 ^ c.logN) c.acc i) (table i)
      (block (c.inDim + 1) c.input i) (block (c.k * 2 ^ c.logN + 1) out i) hk hS hs hbsk
      (block_length _ _ _ (by rw [hwf.hacc, hf.k, hf.N]; exact Nat.mul_le_mul_right _ (by omega)))
      (htable i hi).1 (htable i hi).2
      (by rw [Lwe.Fits, hdim]; exact block_length _ _ _ (by rw [hwf.hin, hf.inp]; exact Nat.mul_le_mul_right _ (by omega)))
      (block_length _ _ _ (by rw [hout, hf.out]; exact Nat.mul_le_mul_right _ (by omega)))
    rw [single, hT]
    exact this
  have key2 : ∀ i, ∃ r, i < nOut → single c out i = some r ∧ Lwe.Fits key r ∧
      ∀ d, IsSwitchedPhase c.logN lweKey (block (c.inDim + 1) c.input i) d →
        |(Lwe.phase key r - ext (2 ^ c.logN) (table i) d).toInt| ≤
          lweKey.length * epBound w (2 ^ c.logN) c.k c.b c.l S E
            (fftError w (2 ^ c.logN) (c.l * (c.k + 1)) (2 ^ (c.b - 1)) ε) 1 := by
    intro i
    by_cases hi : i < nOut
    · obtain ⟨r, hr⟩ := key1 i hi
      exact ⟨r, fun _ => hr⟩
    · exact ⟨[], fun h => absurd h hi⟩
  choose R hR using key2
  refine ⟨?_, fun m s h => ?_⟩
  · obtain ⟨m, s, h, hfin, -⟩ := C93_completes c nIn nAcc nOut threads ht out hwf hout hcheck R (fun i hi => (hR i hi).1)
    exact ⟨m, s, h, hfin⟩
  obtain ⟨a, b, d, e⟩ := C93_unchecked c nIn nAcc nOut threads out hwf hout hf nOut (by omega) R (fun i hi => (hR i hi).1) m s h
  refine ⟨a, b, d ht, fun hfin => ?_⟩
  obtain ⟨-, hl, hb, -⟩ := e hfin
  refine ⟨hl, fun i hi => ?_⟩
  rw [← hf.out, hb i hi]
  exact (hR i hi).2

/-! ### The hypotheses are met -/

/-- Two ciphertexts of dimension 3, polynomials of 32 coefficients, two tables. -/
def demoCall (T : Transform 32) (bsk : List (BitVec 32)) : Call 32 :=
  { T := T, inDim := 3, k := 1, logN := 5, b := 6, l := 2, bsk := bsk, lweSize := 4,
    input := [5, 2 ^ 30, 7, 2 ^ 29, 0, 1, 2 ^ 31, 9], outSize := 33, accK := 1, accN := 32,
    acc := (List.replicate (1 * 32) 0#32 ++ List.replicate 32 3) ++ (List.replicate (1 * 32) 0#32 ++ List.replicate 32 4) }

theorem demo_wf (T : Transform 32) (bsk : List (BitVec 32)) : (demoCall T bsk).WellFormed 2 2 :=
  ⟨rfl, by simp [demoCall], by simp [demoCall], by simp [demoCall], by simp [demoCall], by simp [demoCall]⟩

theorem demo_check (T : Transform 32) (bsk : List (BitVec 32)) :
    (demoCall T bsk).check (List.replicate 66 (0#32)).length = .ok () :=
  (C93_checks _ 2 2 2 (demo_wf T bsk)).2 ⟨⟨rfl, rfl, rfl, rfl, by simp [demoCall]⟩, rfl, rfl⟩

example : ∃ bsk : List (BitVec 32), ∃ m s,
    Steps (demoCall (fftTransform 32 avx2Cpu (idealPlan (2 ^ 4)) (twisties idealSinCos (2 ^ 4))) bsk) m
      ((demoCall (fftTransform 32 avx2Cpu (idealPlan (2 ^ 4)) (twisties idealSinCos (2 ^ 4))) bsk).start
        (List.replicate 66 0) 3) s ∧ s.Final ∧
    ∀ d, IsSwitchedPhase 5 (List.replicate 3 1) [0, 1, 2 ^ 31, 9#32] d →
      |(Lwe.phase (List.replicate 32 1) (block 33 s.out 1) - ext 32 (List.replicate 32 4) d).toInt| ≤
        3 * epBound 32 32 1 6 2 1 0 (fftError 32 32 (2 * (1 + 1)) (2 ^ (6 - 1)) (2 * u53)) 1 := by
  obtain ⟨bsk, hbsk⟩ := exists_bsk (w := 32) 32 1 6 2 (by norm_num) (by norm_num) (List.replicate 3 1) (List.replicate 32 1)
  obtain ⟨⟨m, s, h, hf⟩, hall⟩ := C93_lookup_partial (Or.inl rfl)
    (demoCall (fftTransform 32 avx2Cpu (idealPlan (2 ^ 4)) (twisties idealSinCos (2 ^ 4))) bsk) 2 2 2 3 _ (demo_wf _ bsk) rfl (demo_check _ _) (by simp [demoCall])
    avx2Cpu (by decide) (idealPlan (2 ^ 4)) (2 * u53) (by linarith [u53_pos])
    (idealPlan_accurate (2 ^ 4) (by norm_num) (by norm_num)) idealSinCos idealSinCos_accurate rfl
    (by have := ideal_const 4 (by norm_num); exact_mod_cast this) 1 0 ⟨by simp [demoCall], by simp [demoCall], by simp [demoCall]⟩ (by norm_num) (by norm_num)
    (List.replicate 3 1) (List.replicate 32 1) rfl (by
      intro x hx
      rw [List.eq_of_mem_replicate hx]
      decide) (by
      intro x hx
      rw [List.eq_of_mem_replicate hx]
      decide) rfl hbsk (fun i => if i = 0 then List.replicate 32 3 else List.replicate 32 4) (fun i hi => by
      match i, hi with
      | 0, _ => exact ⟨rfl, (C31_trivial_accumulator 32 1 (by norm_num) _ (List.replicate 32 3) rfl).2⟩
      | 1, _ => exact ⟨rfl, (C31_trivial_accumulator 32 1 (by norm_num) _ (List.replicate 32 4) rfl).2⟩) (by norm_num)
  obtain ⟨-, -, -, hfin⟩ := hall m s h
  refine ⟨bsk, m, s, h, hf, ?_⟩
  exact (hfin hf).2 1 (by norm_num) |>.2

end Verif.Fft.Parallel
