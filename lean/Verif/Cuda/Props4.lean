import Verif.Cuda.FpLemmas
import Verif.Cuda.Props2
import Verif.Pks.Props2
/-
C72: the private functional packing keyswitch on the GPUs, for all orders of execution of the threads.

`σ` gives the order in which the threads of a launch run, `A` is the number of GPUs, `n` the number of
ciphertexts, `s` the input secret key, `N` the polynomial size and `k` the dimension of the output.
`privateKeyswitchOne` and `privatePackingKeyswitch` are the functions of the CPU (C33).
-/
namespace Verif.Cuda
open Pks Random Poly Glwe Decomp Lwe

variable {w : Nat}

/-- C72, the launch: with room in the output for all ciphertexts and `256` dividing `(k+1)N`, every block of
the output becomes the keyswitch by the CPU of a ciphertext, with the key number `i % keys`. This is how the
circuit bootstrap uses it. -/
theorem C72_launch (σ : Order) (hσ : σ.Complete) (b l dimIn k N samples keys : Nat) (hv : ValidParams w b l)
    (ksk xs : List (BitVec w)) (out : DVec (BitVec w)) (hN : 0 < N) (hK : 0 < keys)
    (hk : ksk.length = keys * ((dimIn + 1) * (l * ((k + 1) * N)))) (lx : xs.length = samples * (dimIn + 1))
    (hs : samples ≤ 65535) (ho : out.length = samples * ((k + 1) * N)) (hdiv : 256 ∣ (k + 1) * N) :
    ∃ r : List (BitVec w),
      hostFpKeyswitch σ b l dimIn (k + 1) N samples keys (xs.map some) (ksk.map some) out = .ok (r.map some) ∧
      r.length = samples * ((k + 1) * N) ∧
      ∀ i, i < samples → ∀ after : List (BitVec w), after.length = (k + 1) * N →
        privateKeyswitchOne b l N k (block ((dimIn + 1) * (l * ((k + 1) * N))) ksk (i % keys)) after
          (block (dimIn + 1) xs i) = some (block ((k + 1) * N) r i) := by
  set G := (k + 1) * N with hG
  have hGpos : 0 < G := Nat.mul_pos (by omega) hN
  obtain ⟨r, e, hl, h1, _⟩ := hostFp_words σ hσ b l dimIn (k + 1) N samples keys hv (xs.map some) ksk xs hK hk
    (fun i hi => by rw [DVec.read, List.getElem?_map, getElem?_getD xs i (by omega)]; rfl) hs out ho
  rw [← hG] at h1
  rw [Nat.div_mul_cancel hdiv] at h1
  have hsome : ∀ i, i < samples * G → ∃ x, r[i]? = some (some x) := by
    intro i hi
    have := h1 (i / G) (i % G) ((Nat.div_lt_iff_lt_mul hGpos).2 hi) (Nat.mod_lt _ hGpos)
    rw [Nat.mul_comm, Nat.div_add_mod] at this
    exact ⟨_, this⟩
  have hr : r = (r.map fun x => x.getD 0).map some := by
    refine List.ext_getElem? fun i => ?_
    by_cases hi : i < samples * G
    · obtain ⟨x, hx⟩ := hsome i hi
      simp [hx]
    · have : r.length ≤ i := by omega
      simp [List.getElem?_eq_none this]
  refine ⟨r.map fun x => x.getD 0, by rw [← hr]; exact e, by rw [List.length_map, hl, ho], ?_⟩
  intro i hi after ha
  have hkl : (block ((dimIn + 1) * (l * G)) ksk (i % keys)).length = (dimIn + 1) * (l * G) := by
    apply block_length
    rw [hk]; exact Nat.mul_le_mul_right _ (Nat.mod_lt _ hK)
  have hxl : (block (dimIn + 1) xs i).length = dimIn + 1 := by
    apply block_length
    rw [lx]; exact Nat.mul_le_mul_right _ hi
  obtain ⟨r', c1, c2, c3⟩ := private_coeff b l N k (dimIn + 1) hv.level hGpos _ after _ hkl ha hxl
  rw [c1, Option.some.injEq]
  have hbl : (block G (r.map fun x => x.getD 0) i).length = G := by
    apply block_length
    rw [List.length_map, hl, ho]; exact Nat.mul_le_mul_right _ hi
  refine List.ext_getElem (c2.trans hbl.symm) fun idx g1 g2 => ?_
  have e1 := c3 idx (c2 ▸ g1)
  have e2 : (block G (r.map fun x => x.getD 0) i).getD idx 0 = r'.getD idx 0 := by
    rw [block_getD _ _ _ _ _ (hbl ▸ g2), e1, List.getD_eq_getElem?_getD, List.getElem?_map,
      h1 i idx hi (hbl ▸ g2)]
    rfl
  rw [List.getD_eq_getElem?_getD, List.getD_eq_getElem?_getD, List.getElem?_eq_getElem g1,
    List.getElem?_eq_getElem g2] at e2
  exact e2.symm

/-- C72, the part that holds: one ciphertext on one GPU, with `256` dividing `(k+1)N`. The result is the one of
the CPU, so it is an encryption of `λ P phase` within the error of C33. Missing: everything else (see
`C72_many_violated`, `C72_unchanged_violated` and `C72_remainder_violated`). -/
theorem C72_packing_partial (bld : Csprng.Build) (σ : Nat → Order) (hσ : (σ 0).Complete) (b l N k : Nat)
    (hv : ValidParams w b l) (s ksk ct output : List (BitVec w)) (vx vk : List (DVec (BitVec w)))
    (out : DVec (BitVec w)) (hN : 0 < N) (hfk : ksk.length < 2 ^ 32) (hfi : s.length + 1 < 2 ^ 32)
    (lk : ksk.length = (s.length + 1) * (l * ((k + 1) * N))) (hb : Fits s ct)
    (ho : out.length = (k + 1) * N) (hout : CtFits N k output)
    (hx : OnGpus 1 (s.length + 1) ct vx) (hk : broadcast 1 ksk = .ok vk) (hdiv : 256 ∣ (k + 1) * N) :
    ∃ r : List (BitVec w), executeFpKeyswitch σ b l s.length (k + 1) N 1 1 1 vx vk out = .ok (r.map some) ∧
      privatePackingKeyswitch bld b l N k (s.length + 1) ksk output ct = some r ∧
      ∀ (key P : List (BitVec w)) (lam : BitVec w) (err : Nat → Nat → Rq (BitVec w) N) (E B : Int),
        Pks.KeyEnc N k b l (s.length + 1) key ksk
          (fun i => const N (lam * (s ++ [-1]).getD i 0) * toRq N P) err →
        (∀ i j, i < s.length + 1 → j < l → Small N B (err i j)) → Small N E (const N lam * toRq N P) →
        BinaryKey s →
        ∃ e : Rq (BitVec w) N, Small N ((s.length + 1) * 2 ^ (w - b * l - 1) * E +
            (s.length + 1) * (l * (2 ^ (b - 1) * B))) e ∧
          glwePhase N k key r = const N lam * toRq N P * const N (phase s ct) + e := by
  rw [execute_one σ b l N k s ksk ct vx vk out hfk hfi hb hx hk]
  have hbl : block (s.length + 1) ct 0 = ct := by
    have hc : ct.length = s.length + 1 := hb
    rw [block, Nat.zero_mul, List.drop_zero, ← hc, List.take_length]
  have hkl : block ((s.length + 1) * (l * ((k + 1) * N))) ksk (0 % 1) = ksk := by
    rw [block, Nat.mod_one, Nat.zero_mul, List.drop_zero, ← lk, List.take_length]
  obtain ⟨r, e, hl, h⟩ := C72_launch (σ 0) hσ b l s.length k N 1 1 hv ksk ct out hN (by omega)
    (by rw [Nat.one_mul]; exact lk) (by rw [Nat.one_mul]; exact hb) (by omega) (by rw [Nat.one_mul]; exact ho) hdiv
  have hr : block ((k + 1) * N) r 0 = r := by
    rw [Nat.one_mul] at hl
    rw [block, Nat.zero_mul, List.drop_zero, ← hl, List.take_length]
  have h0 := h 0 (by omega) output hout
  rw [hkl, hbl, hr] at h0
  refine ⟨r, e, packing_one bld b l N k s.length hN hv.level ksk output ct lk hout hb r h0, ?_⟩
  intro key P lam err E B hke he hE hs
  obtain ⟨e', q1, q2⟩ := C33_error_bound hN b l hv s key ksk P ct lam err E B hke he hE hs hb
  obtain ⟨r', p1, _, p3⟩ := q2 output hout
  rw [h0] at p1
  obtain rfl := Option.some.inj p1
  exact ⟨e', q1, p3⟩

/-- C72 is violated: with two ciphertexts or more, and at least one for each GPU, memory is accessed out of
the allocation of the output: a GLWE ciphertext is written for each LWE ciphertext, and the GPUs other than
the first one write into the memory of the first. -/
theorem C72_many_violated (σ : Nat → Order) (hσ : (σ 0).Complete) (A n b l N k : Nat)
    (s ksk xs : List (BitVec w)) (vx vk : List (DVec (BitVec w))) (out : DVec (BitVec w)) (hA : 0 < A)
    (hAn : A ≤ n) (hn : 2 ≤ n) (hn' : n ≤ 65535) (hfk : ksk.length < 2 ^ 32)
    (hfi : n * (s.length + 1) < 2 ^ 32)
    (lx : xs.length = n * (s.length + 1)) (hx : OnGpus A (s.length + 1) xs vx) (hk : broadcast A ksk = .ok vk)
    (ho : out.length = (k + 1) * N) (hG : 256 ≤ (k + 1) * N) :
    executeFpKeyswitch σ b l s.length (k + 1) N 1 A n vx vk out = .overrun := by
  obtain ⟨hr, rfl⟩ := onGpus_shares hA (by omega) hAn hfi lx hx
  rw [broadcast_ok A ksk hfk] at hk
  obtain rfl := Out.ok.inj hk
  have hvk : ∀ i, i < A → getVec (List.replicate A (ksk.map some)) i = .ok (ksk.map some) := fun i hi => by
    rw [getVec, List.getElem?_replicate, if_pos hi]
  have hact : activeGpus A n = A := by rw [activeGpus_eq]; omega
  unfold executeFpKeyswitch
  rw [hact]
  obtain ⟨m, rfl⟩ := Nat.exists_eq_succ_of_ne_zero (show A ≠ 0 by omega)
  rw [List.range_succ_eq_map, List.foldl_cons, Out.bind_ok, samplesOnGpu, if_neg (by omega), Out.bind_ok,
    getVec_shares _ _ _ _ 0 (by omega), Out.bind_ok, hvk 0 (by omega), Out.bind_ok, if_pos rfl]
  by_cases h1 : m = 0
  · subst h1
    rw [if_pos rfl, Nat.mod_one, Nat.div_one, Nat.add_zero n,
      hostFp_overrun (σ 0) hσ b l s.length (k + 1) N n 1 _ _ out hG hn hn' ho]
    rfl
  · obtain ⟨m, rfl⟩ := Nat.exists_eq_succ_of_ne_zero h1
    rw [List.range_succ_eq_map, List.map_cons, List.foldl_cons]
    set first := hostFpKeyswitch (σ 0) b l s.length (k + 1) N _ 1 _ _ out with hf
    have hp := share_pos (size := 1) 1 (show 1 < m.succ.succ by omega) (by omega) hr
    rcases hostFp_tame (σ 0) b l s.length (k + 1) N _ 1 _ _ out with h | ⟨o, h, _⟩
    · rw [hf, h, Out.bind_overrun]
      exact foldl_overrun _ _
    · rw [hf, h, Out.bind_ok, samplesOnGpu, if_neg (by omega), Out.bind_ok,
        getVec_shares _ _ _ _ 1 (by omega), Out.bind_ok, hvk 1 (by omega), Out.bind_ok, if_neg (by omega),
        if_neg (by
          have h3 := hp.1
          have h4 := hp.2
          rw [Nat.mul_one] at h3 h4
          change ¬((k + 1) * N / 256 = 0 ∨ (n / (m.succ.succ) + if 1 = m.succ.succ - 1 then n % m.succ.succ else 0) = 0 ∨
            65535 < (n / (m.succ.succ) + if 1 = m.succ.succ - 1 then n % m.succ.succ else 0))
          omega)]
      exact foldl_overrun _ _

/-- C72 is violated: with fewer ciphertexts than GPUs, or with `(k+1)N` below 256, the call returns and the
output keeps its previous content. -/
theorem C72_unchanged_violated (σ : Nat → Order) (A n b l N k : Nat)
    (s ksk xs : List (BitVec w)) (vx vk : List (DVec (BitVec w))) (out : DVec (BitVec w)) (hA : 0 < A) (hn : 0 < n)
    (hfk : ksk.length < 2 ^ 32) (hfi : n * (s.length + 1) < 2 ^ 32)
    (lx : xs.length = n * (s.length + 1)) (hx : OnGpus A (s.length + 1) xs vx) (hk : broadcast A ksk = .ok vk)
    (hbad : n < A ∨ (k + 1) * N < 256) :
    executeFpKeyswitch σ b l s.length (k + 1) N 1 A n vx vk out = .ok out := by
  rw [broadcast_ok A ksk hfk] at hk
  obtain rfl := Out.ok.inj hk
  have hvl := onGpus_length hA (show 0 < s.length + 1 by omega) hn hfi lx hx
  unfold executeFpKeyswitch
  have hstep : ∀ i, i < activeGpus A n → ∀ o : DVec (BitVec w),
      ((samplesOnGpu A n i).bind fun samples =>
        (getVec vx i).bind fun v => (getVec (List.replicate A (ksk.map some)) i).bind fun q =>
          if i = 0 then hostFpKeyswitch (σ i) b l s.length (k + 1) N samples 1 v q o
          else if (k + 1) * N / 256 = 0 ∨ samples = 0 ∨ 65535 < samples then .ok o
          else .overrun) = .ok o := by
    intro i hi o
    rw [activeGpus_eq] at hi
    have hg : getVec vx i = .ok (vx[i]'(by omega)) := by
      rw [getVec, List.getElem?_eq_getElem (by omega)]
    rw [samplesOnGpu, if_neg (by omega), Out.bind_ok, hg, Out.bind_ok, getVec, List.getElem?_replicate,
      if_pos (by omega), Out.bind_ok]
    have hz : (k + 1) * N / 256 = 0 ∨ (n / A + if i = A - 1 then n % A else 0) = 0 := by
      rcases hbad with h | h
      · right
        rw [if_neg (by omega), Nat.div_eq_of_lt h]
      · left; omega
    have hz' : (k + 1) * N / 256 = 0 ∨ (n / A + if i = A - 1 then n % A else 0) = 0 ∨
        65535 < (n / A + if i = A - 1 then n % A else 0) := by tauto
    by_cases h0 : i = 0
    · rw [if_pos h0, hostFpKeyswitch]
      simp only
      rw [if_pos hz']
    · rw [if_neg h0, if_pos hz']
  have : ∀ ts : List Nat, (∀ i ∈ ts, i < activeGpus A n) →
      ts.foldl (fun (acc : Out (DVec (BitVec w))) i => acc.bind fun o =>
        (samplesOnGpu A n i).bind fun samples =>
        (getVec vx i).bind fun v => (getVec (List.replicate A (ksk.map some)) i).bind fun q =>
          if i = 0 then hostFpKeyswitch (σ i) b l s.length (k + 1) N samples 1 v q o
          else if (k + 1) * N / 256 = 0 ∨ samples = 0 ∨ 65535 < samples then .ok o
          else .overrun) (.ok out) = .ok out := by
    intro ts
    induction ts with
    | nil => intro _; rfl
    | cons i ts ih =>
      intro h
      rw [List.foldl_cons, Out.bind_ok, hstep i (h i (by simp)) out]
      exact ih fun j hj => h j (by simp [hj])
  exact this _ fun i hi => List.mem_range.1 hi

/-- C72 is violated: one ciphertext on one GPU, with `(k+1)N` above 256 and not one of its multiples. The last
`(k+1)N % 256` words keep their previous content. -/
theorem C72_remainder_violated (σ : Nat → Order) (hσ : (σ 0).Complete) (b l N k : Nat)
    (hv : ValidParams w b l) (s ksk ct : List (BitVec w)) (vx vk : List (DVec (BitVec w)))
    (out : DVec (BitVec w)) (hfk : ksk.length < 2 ^ 32) (hfi : s.length + 1 < 2 ^ 32)
    (lk : ksk.length = (s.length + 1) * (l * ((k + 1) * N))) (hb : Fits s ct)
    (ho : out.length = (k + 1) * N)
    (hx : OnGpus 1 (s.length + 1) ct vx) (hk : broadcast 1 ksk = .ok vk) :
    ∃ r, executeFpKeyswitch σ b l s.length (k + 1) N 1 1 1 vx vk out = .ok r ∧ r.length = (k + 1) * N ∧
      r.drop ((k + 1) * N / 256 * 256) = out.drop ((k + 1) * N / 256 * 256) := by
  rw [execute_one σ b l N k s ksk ct vx vk out hfk hfi hb hx hk]
  have hc : ct.length = s.length + 1 := hb
  obtain ⟨r, e, hl, _, h⟩ := hostFp_words (σ 0) hσ b l s.length (k + 1) N 1 1 hv (ct.map some) ksk ct (by omega)
    (by rw [Nat.one_mul]; exact lk)
    (fun i hi => by rw [DVec.read, List.getElem?_map, getElem?_getD ct i (by omega)]; rfl) (by omega) out
    (by rw [Nat.one_mul]; exact ho)
  refine ⟨r, e, hl.trans ho, List.ext_getElem? fun i => ?_⟩
  rw [List.getElem?_drop, List.getElem?_drop]
  by_cases hi : (k + 1) * N / 256 * 256 + i < (k + 1) * N
  · have := h 0 _ (by omega) hi (by omega)
    rwa [Nat.zero_mul, Nat.zero_add] at this
  · rw [List.getElem?_eq_none (by omega), List.getElem?_eq_none (by omega)]

/-- The hypotheses of the theorems above are met: width 8, base 4, two levels, input dimension 1, `k = 1` and
`N = 128`, so that `(k+1)N = 256`; one ciphertext on one GPU, 5 ciphertexts on 2 GPUs, 1 ciphertext on 2 GPUs. -/
example : ValidParams 8 2 2 ∧ (256 ∣ (1 + 1) * 128) ∧
    (∃ v, OnGpus 1 2 [5#8, 7#8] v) ∧ (∃ v, OnGpus 2 2 (List.replicate (5 * 2) (1#8)) v) ∧
    (∃ v, OnGpus 2 2 [5#8, 7#8] v) ∧
    (∃ v, broadcast 2 (List.replicate (2 * (2 * 256)) (1#8)) = .ok v) ∧
    Order.Complete List.range ∧ Order.Complete fun m => (List.range m).reverse := by
  refine ⟨⟨by norm_num, by norm_num, by norm_num⟩, by norm_num, ⟨_, rfl⟩, ?_, ⟨_, rfl⟩,
    ⟨_, broadcast_ok 2 _ (by rw [List.length_replicate]; norm_num)⟩, fun m => List.Perm.refl _, fun m => List.reverse_perm _⟩
  exact ⟨_, toGpus_shares 2 2 5 _ (by norm_num) (by norm_num) List.length_replicate (by norm_num) (by norm_num)
    (by norm_num)⟩

/-- A thread of the kernel: dimension 1, two keys with different words; ciphertext 1 uses key 1. -/
example : fpValue 2 1 1 1 1 2 [some 64#8, some 0, some 64, some 128] [some 1, some 2, some 3, some 5] 1 0 =
    .ok (some (0 - (1 * 3 + 2 * 5))) := by decide +kernel

end Verif.Cuda
