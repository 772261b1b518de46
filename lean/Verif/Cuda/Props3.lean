import Verif.Cuda.KeyswitchGpus
/-
C71: the keyswitch of a vector of LWE ciphertexts on the GPUs, for all interleavings of the 128 threads that
compute a ciphertext.

`A` is the number of GPUs, `n` the number of ciphertexts, `s` and `s'` the input and output secret keys,
`maxShared` the shared memory of a block in bytes. `sched i k` is the schedule of block `k` on GPU `i`, the
list of the threads in the order in which they move; when it ends, the threads move in turn until all have
finished. `keyswitchCiphertext` is the keyswitch of the CPU (C16).
-/
namespace Verif.Cuda
open Lwe (phase keyswitchCiphertext)

variable {w : Nat}

/-- C71, all outcomes: for every schedule the keyswitch ends without access out of the memory, and every
ciphertext of the result is what the CPU computes or, when the output dimension is not a multiple of 128,
what the CPU computes after the body of the input was replaced by 0. -/
theorem C71_keyswitch_outcomes (maxShared : Nat) (sched : Nat → Nat → List Nat) (A n b l : Nat)
    (hv : Decomp.ValidParams w b l) (s s' ksk xs os after : List (BitVec w))
    (vx vk vo : List (DVec (BitVec w))) (hA : 0 < A) (hAn : A ≤ n) (hd : 0 < s.length)
    (hfi : n * (s.length + 1) < 2 ^ 32) (hfo : n * (s'.length + 1) < 2 ^ 31)
    (hfk : s.length * (l * (s'.length + 1)) < 2 ^ 31) (hsh : w / 8 * (s'.length + 1) ≤ maxShared)
    (lk : ksk.length = s.length * (l * (s'.length + 1)))
    (lx : xs.length = n * (s.length + 1)) (lo : os.length = n * (s'.length + 1))
    (hx : OnGpus A (s.length + 1) xs vx) (hk : broadcast A ksk = .ok vk)
    (ho : OnGpus A (s'.length + 1) os vo) (ha : after.length = s'.length + 1) :
    ∃ vr r, executeKeyswitch maxShared sched b l s.length s'.length A n vx vk vo = .ok vr ∧
      r.length = n * (s'.length + 1) ∧ OnGpus A (s'.length + 1) r vr ∧
      (A ∣ n → fromGpus A (s'.length + 1) n 0 vr = .ok (r.map some)) ∧
      ∀ i, i < n →
        keyswitchCiphertext b l (s'.length + 1) ksk after (block (s.length + 1) xs i) =
          some (block (s'.length + 1) r i) ∨
        s'.length % 128 ≠ 0 ∧
        keyswitchCiphertext b l (s'.length + 1) ksk after ((block (s.length + 1) xs i).dropLast ++ [0]) =
          some (block (s'.length + 1) r i) := by
  obtain ⟨hr, rfl⟩ := onGpus_shares hA (by omega) hAn hfi lx hx
  obtain ⟨_, rfl⟩ := onGpus_shares hA (by omega) hAn (by omega) lo ho
  rw [broadcast_ok A ksk (by omega)] at hk
  obtain rfl := Out.ok.inj hk
  obtain ⟨r, hl, he, h⟩ := executeKeyswitch_general maxShared sched A n b l s.length s'.length hv ksk xs
    (fun i => os[i]?) hA hAn hd hfo hfk hsh hr lk lx
  obtain ⟨q1, q2⟩ := onGpus_result r hA (show 0 < s'.length + 1 by omega) hAn (by omega) hr hl
  exact ⟨_, r, he, hl, q1, q2, fun i hi => (h i hi after ha).1⟩

/-- C71, the part that holds: when the output dimension is a multiple of 128, every ciphertext of the result
is what the CPU computes, for every schedule; with a key as in C16 of noise at most `B` and a binary input
key, its phase differs from the one of the input by at most `n · 2^(w-bl-1) + n · l · 2^(b-1) · B`. Missing:
the other dimensions (see `C71_body_lost_violated`), and fewer ciphertexts than GPUs (see
`C71_refused_violated`). -/
theorem C71_keyswitch_partial (maxShared : Nat) (sched : Nat → Nat → List Nat) (A n b l : Nat)
    (hv : Decomp.ValidParams w b l) (s s' ksk xs os after : List (BitVec w))
    (vx vk vo : List (DVec (BitVec w))) (hA : 0 < A) (hAn : A ≤ n) (hd : 0 < s.length)
    (hfi : n * (s.length + 1) < 2 ^ 32) (hfo : n * (s'.length + 1) < 2 ^ 31)
    (hfk : s.length * (l * (s'.length + 1)) < 2 ^ 31) (hsh : w / 8 * (s'.length + 1) ≤ maxShared)
    (lk : ksk.length = s.length * (l * (s'.length + 1)))
    (lx : xs.length = n * (s.length + 1)) (lo : os.length = n * (s'.length + 1))
    (hx : OnGpus A (s.length + 1) xs vx) (hk : broadcast A ksk = .ok vk)
    (ho : OnGpus A (s'.length + 1) os vo) (ha : after.length = s'.length + 1)
    (hdim : s'.length % 128 = 0) :
    ∃ vr r, executeKeyswitch maxShared sched b l s.length s'.length A n vx vk vo = .ok vr ∧
      r.length = n * (s'.length + 1) ∧ OnGpus A (s'.length + 1) r vr ∧
      (A ∣ n → fromGpus A (s'.length + 1) n 0 vr = .ok (r.map some)) ∧
      (∀ i, i < n →
        keyswitchCiphertext b l (s'.length + 1) ksk after (block (s.length + 1) xs i) =
          some (block (s'.length + 1) r i)) ∧
      ∀ (e : Nat → Nat → Int) (B : Nat),
        (∀ i, i < s.length → ∀ k, k < l → phase s' (block (s'.length + 1) ksk (i * l + k)) =
          s.getD i 0 * ((2 ^ (w - b * (k + 1)) : Nat) : BitVec w) + ((e i k : Int) : BitVec w)) →
        (∀ i, i < s.length → ∀ k, k < l → |e i k| ≤ B) → Lwe.BinaryKey s →
        ∀ i, i < n → ∃ E : Int,
          phase s' (block (s'.length + 1) r i) = phase s (block (s.length + 1) xs i) + (E : BitVec w) ∧
          |E| ≤ s.length * 2 ^ (w - b * l - 1) + s.length * l * 2 ^ (b - 1) * B := by
  obtain ⟨vr, r, h1, h2, h3, h4, h5⟩ := C71_keyswitch_outcomes maxShared sched A n b l hv s s' ksk xs os after
    vx vk vo hA hAn hd hfi hfo hfk hsh lk lx lo hx hk ho ha
  have hcpu : ∀ i, i < n →
      keyswitchCiphertext b l (s'.length + 1) ksk after (block (s.length + 1) xs i) =
        some (block (s'.length + 1) r i) := by
    intro i hi
    rcases h5 i hi with h | ⟨h, _⟩
    · exact h
    · exact absurd hdim h
  refine ⟨vr, r, h1, h2, h3, h4, hcpu, ?_⟩
  intro e B hrow he hs i hi
  obtain ⟨r', E, k1, _, k3, k4⟩ := Lwe.C16_error_bound b l hv s s' ksk after (block (s.length + 1) xs i) e B lk
    hrow he hs ha (by
      show (block (s.length + 1) xs i).length = s.length + 1
      apply block_length
      rw [lx]; exact Nat.mul_le_mul_right _ hi)
  rw [hcpu i hi] at k1
  obtain rfl := Option.some.inj k1
  exact ⟨E, k3, k4⟩

/-- C71 is violated: when the output dimension is not a multiple of 128 there are schedules on which every
ciphertext loses its body: thread 0 copies the body, then another thread zeroes this cell, and no barrier
separates the two. The phase is the one of the keyswitch of the CPU, minus the body of the input. -/
theorem C71_body_lost_violated (maxShared A n b l : Nat)
    (hv : Decomp.ValidParams w b l) (s s' ksk xs os after : List (BitVec w))
    (vx vk vo : List (DVec (BitVec w))) (hA : 0 < A) (hAn : A ≤ n) (hd : 0 < s.length)
    (hfi : n * (s.length + 1) < 2 ^ 32) (hfo : n * (s'.length + 1) < 2 ^ 31)
    (hfk : s.length * (l * (s'.length + 1)) < 2 ^ 31) (hsh : w / 8 * (s'.length + 1) ≤ maxShared)
    (lk : ksk.length = s.length * (l * (s'.length + 1)))
    (lx : xs.length = n * (s.length + 1)) (lo : os.length = n * (s'.length + 1))
    (hx : OnGpus A (s.length + 1) xs vx) (hk : broadcast A ksk = .ok vk)
    (ho : OnGpus A (s'.length + 1) os vo) (ha : after.length = s'.length + 1)
    (hdim : s'.length % 128 ≠ 0) :
    ∃ (sched : Nat → Nat → List Nat) (vr : List (DVec (BitVec w))) (r : List (BitVec w)),
      executeKeyswitch maxShared sched b l s.length s'.length A n vx vk vo = .ok vr ∧
      OnGpus A (s'.length + 1) r vr ∧
      ∀ i, i < n → ∃ c,
        keyswitchCiphertext b l (s'.length + 1) ksk after (block (s.length + 1) xs i) = some c ∧
        phase s' (block (s'.length + 1) r i) =
          phase s' c - (block (s.length + 1) xs i).getD s.length 0 := by
  obtain ⟨hr, rfl⟩ := onGpus_shares hA (by omega) hAn hfi lx hx
  obtain ⟨_, rfl⟩ := onGpus_shares hA (by omega) hAn (by omega) lo ho
  rw [broadcast_ok A ksk (by omega)] at hk
  obtain rfl := Out.ok.inj hk
  obtain ⟨r, hl, he, h⟩ := executeKeyswitch_general maxShared
    (fun _ k => bodyFirst (w := w) ⟨b, l, s.length, s'.length, [], [], k⟩) A n b l s.length s'.length hv ksk xs
    (fun i => os[i]?) hA hAn hd hfo hfk hsh hr lk lx
  obtain ⟨q1, _⟩ := onGpus_result r hA (show 0 < s'.length + 1 by omega) hAn (by omega) hr hl
  refine ⟨_, _, r, he, q1, ?_⟩
  intro i hi
  have hlost := (h i hi after ha).2 (fun _ _ => rfl) hdim
  have hbl : (block (s.length + 1) xs i).length = s.length + 1 := by
    apply block_length
    rw [lx]; exact Nat.mul_le_mul_right _ hi
  set ct := block (s.length + 1) xs i
  obtain ⟨mask, body, hsplit, hm⟩ := Lwe.exists_split (s := s) (ct := ct) hbl
  obtain ⟨c, c1, _, c3⟩ := Lwe.keyswitch_phase b l hv.level s.length s' ksk after mask body lk ha hm
  obtain ⟨c', d1, _, d3⟩ := Lwe.keyswitch_phase b l hv.level s.length s' ksk after mask 0 lk ha hm
  have hw : withoutBody ct = mask ++ [0] := by
    rw [withoutBody, hsplit, List.dropLast_append_of_ne_nil (by simp)]
    simp
  have hbody : ct.getD s.length 0 = body := by
    rw [hsplit, List.getD_eq_getElem?_getD, ← hm]
    simp
  rw [hw, d1] at hlost
  refine ⟨c, by rw [hsplit]; exact c1, ?_⟩
  rw [← Option.some.inj hlost, d3, c3, hbody]
  ring

/-- C71, progress: whatever the threads of a block did before, as long as they have not all finished one of
them can move, and no move accesses memory out of the allocations; every complete run finishes. -/
theorem C71_progress (P : KsArgs w) (hd : 0 < P.dimIn) (hi : (P.blk + 1) * (P.dimIn + 1) ≤ P.input.length)
    (hk : P.dimIn * P.l * (P.dimOut + 1) ≤ P.ksk.length) (sched : List Nat) (out : DVec (BitVec w))
    (ho : out.length = P.dimOut + 1) :
    (∃ st, steps P sched (ksStart P out) = .ok st ∧
      (¬ Finished P st → ∃ t st', t < 128 ∧ step P st t = .ok st' ∧ st' ≠ st)) ∧
    ∃ st, runBlock P sched out = .ok st ∧ Finished P st := by
  have hf : KsFits P := ⟨hd, hi, hk⟩
  have hi0 := start_inv P out ho
  obtain ⟨st1, e1, hi1, _⟩ := steps_ok P hf (fun _ => True) (fun _ _ _ _ _ _ => trivial) sched _ hi0 trivial
  refine ⟨⟨st1, e1, ?_⟩, ?_⟩
  · intro hn
    obtain ⟨t, st', ht, e, hlt⟩ := progress P hf st1 hi1 hn
    exact ⟨t, st', ht, e, fun h => by rw [h] at hlt; omega⟩
  · have hm1 := steps_measure_le P hf sched _ st1 hi0 e1
    obtain ⟨st2, e2, hfin⟩ := rounds_finish P hf (totalSteps P) st1 hi1
      (le_trans hm1 (start_measure P out))
    exact ⟨st2, by rw [runBlock, e1, Out.bind_ok, e2], hfin⟩

/-- C71 is violated: with fewer ciphertexts than GPUs, or with an output dimension that does not fit in the
shared memory of a block, the keyswitch terminates the process. -/
theorem C71_refused_violated (maxShared : Nat) (sched : Nat → Nat → List Nat) (A n b l : Nat)
    (s s' ksk xs os : List (BitVec w)) (vx vk vo : List (DVec (BitVec w))) (hn : 0 < n) (hA : 0 < A)
    (hfi : n * (s.length + 1) < 2 ^ 32) (hfo : n * (s'.length + 1) < 2 ^ 31)
    (hfk : s.length * (l * (s'.length + 1)) < 2 ^ 31)
    (lk : ksk.length = s.length * (l * (s'.length + 1)))
    (lx : xs.length = n * (s.length + 1)) (lo : os.length = n * (s'.length + 1))
    (hx : OnGpus A (s.length + 1) xs vx) (hk : broadcast A ksk = .ok vk)
    (ho : OnGpus A (s'.length + 1) os vo)
    (hbad : n < A ∨ A ≤ n ∧ maxShared < w / 8 * (s'.length + 1)) :
    executeKeyswitch maxShared sched b l s.length s'.length A n vx vk vo = .exit := by
  rw [broadcast_ok A ksk (by omega)] at hk
  obtain rfl := Out.ok.inj hk
  have hvk : getVec (List.replicate A (ksk.map some)) 0 = .ok (ksk.map some) := by
    rw [getVec, List.getElem?_replicate, if_pos hA]
  have key : ∀ (sz : Nat) (zs : List (BitVec w)) (vz : List (DVec (BitVec w))), n < A → 0 < sz →
      zs.length = n * sz → n * sz < 2 ^ 32 → OnGpus A sz zs vz → ∃ v vs, vz = v :: vs := by
    intro sz zs vz hlt h0 hl hf hz
    have hm : min n A = n := by omega
    rw [OnGpus, toGpus_ok A sz n zs (by omega) h0 hn hl hf
      (by rw [hm, Nat.mod_self, Nat.div_self hn]; exact Nat.one_pos)] at hz
    have e := Out.ok.inj hz
    have hlen : vz.length = n := by rw [← e, List.length_map, layout_length, hm]
    cases vz with
    | nil => simp at hlen; omega
    | cons v vs => exact ⟨v, vs, rfl⟩
  rcases hbad with hlt | ⟨hAn, hsh⟩
  · obtain ⟨v1, w1, rfl⟩ := key _ xs vx hlt (by omega) lx hfi hx
    obtain ⟨v2, w2, rfl⟩ := key _ os vo hlt (by omega) lo (by omega) ho
    apply forGpus_few A n _ _ _ hn hlt
    rw [hvk]
    simp only [getVec, List.getElem?_cons_zero, Out.bind_ok]
    rw [hostKeyswitch, if_neg (by rw [Nat.mul_zero, Nat.mul_assoc]; omega),
      if_neg (by rw [Nat.mul_zero]; omega), if_pos (Or.inl rfl)]
  · obtain ⟨hr, rfl⟩ := onGpus_shares hA (by omega) hAn hfi lx hx
    obtain ⟨_, rfl⟩ := onGpus_shares hA (by omega) hAn (by omega) lo ho
    have hv0 := shares_getElem? A (s'.length + 1) n (fun i => os[i]?) 0 hA
    have p3 := share_le_words A (s'.length + 1) n 0 hA
    rw [Nat.zero_mul, Nat.zero_add] at p3
    rw [executeKeyswitch]
    have hvx := getVec_shares A (s.length + 1) n (fun i => xs[i]?) 0 hA
    cases hs : shares A (s'.length + 1) n (fun i => os[i]?) with
    | nil => rw [hs] at hv0; simp at hv0
    | cons v vs =>
      rw [hs] at hv0
      have hv1 := Option.some.inj hv0
      have hvl : v.length = (n / A + if 0 = A - 1 then n % A else 0) * (s'.length + 1) := by
        rw [hv1, words_length]
      rw [forGpus, if_pos (by rw [activeGpus_eq]; omega), samplesOnGpu, if_neg (by omega), Out.bind_ok, hvx,
        Out.bind_ok, hvk, Out.bind_ok, hostKeyswitch]
      set m := n / A + if 0 = A - 1 then n % A else 0 with hm
      rw [if_neg (by rw [Nat.mul_comm, Nat.mul_assoc]; omega), if_neg (by rw [Nat.mul_comm]; omega),
        if_pos (Or.inr hsh)]
      rfl

/-- The hypotheses of the theorems above are met: width 8, base 4, two levels, from dimension 1 to
dimension 2, 5 ciphertexts on 2 GPUs; and dimension 128 is a multiple of 128. -/
example : Decomp.ValidParams 8 2 2 ∧
    (∃ v, OnGpus 2 2 (List.replicate (5 * 2) (1#8)) v) ∧ (∃ v, OnGpus 2 3 (List.replicate (5 * 3) (1#8)) v) ∧
    (∃ v, OnGpus 2 129 (List.replicate (5 * 129) (1#8)) v) ∧
    (∃ v, broadcast 2 (List.replicate 12 (1#8)) = .ok v) ∧ 8 / 8 * (2 + 1) ≤ 49152 ∧ 128 % 128 = 0 := by
  refine ⟨⟨by norm_num, by norm_num, by norm_num⟩, ?_, ?_, ?_, ⟨_, broadcast_ok 2 _ (by simp)⟩, by norm_num,
    by norm_num⟩
  · exact ⟨_, toGpus_shares 2 2 5 _ (by norm_num) (by norm_num) List.length_replicate (by norm_num) (by norm_num)
      (by norm_num)⟩
  · exact ⟨_, toGpus_shares 2 3 5 _ (by norm_num) (by norm_num) List.length_replicate (by norm_num) (by norm_num)
      (by norm_num)⟩
  · exact ⟨_, toGpus_shares 2 129 5 _ (by norm_num) (by norm_num) List.length_replicate (by norm_num) (by norm_num)
      (by norm_num)⟩

/-- One ciphertext of dimension 1 with body 100, switched to dimension 2 with a zero key: the body is lost
when thread 0 moves first, and kept when thread 2 moves before it. -/
example :
    let P : KsArgs 8 := ⟨2, 2, 1, 2, [some 5, some 100], List.replicate 6 (some 0), 0⟩
    let rest := (List.range 6).flatMap fun _ => [0, 1, 2]
    ((steps P (bodyFirst P ++ [1, 2] ++ rest) (ksStart P [none, none, none])).bind fun st => .ok st.out) =
      .ok [some 0, some 0, some 0#8] ∧
    ((steps P ([2, 0, 0, 1] ++ rest) (ksStart P [none, none, none])).bind fun st => .ok st.out) =
      .ok [some 0, some 0, some 100#8] := by
  constructor <;> decide +kernel

end Verif.Cuda
