import Verif.Pks.Props
/-
Property C33 (private functional packing keyswitch), the generated keys of C32 and C33, and examples.
-/
set_option linter.unusedSectionVars false
namespace Verif.Pks
open Verif.Random Verif.Poly Verif.Glwe Verif.Decomp Verif.Lwe

variable {w : Nat}

/-- C33, one ciphertext. With a key whose block `i < n` encrypts `λ s_i P` and whose last block encrypts
`-λ P`, keyswitching `before = (a_0, …, a_n)` (`a_n` the body) gives the phase
`λ P (phase(before) + Σ_{i<n} s_i (a_i - c_i) - (a_n - c_n))` minus the digits times the key errors; `c_i` is
the representable value nearest to `a_i`. The previous content of the output is irrelevant. -/
theorem C33_one {N k : Nat} (hN : 0 < N) (b l : Nat) (hv : ValidParams w b l)
    (s key ksk P before : List (BitVec w)) (lam : BitVec w) (err : Nat → Nat → Rq (BitVec w) N)
    (hk : KeyEnc N k b l (s.length + 1) key ksk (fun i => const N (lam * (s ++ [-1]).getD i 0) * toRq N P) err)
    (hb : Fits s before) :
    ∃ (c : Nat → BitVec w) (d : Nat → Nat → Int),
      (∀ i, i < s.length + 1 → Representable b l (c i) ∧
        -(2 ^ (w - b * l - 1) : Int) ≤ signedDiff (before.getD i 0) (c i) ∧
        signedDiff (before.getD i 0) (c i) < 2 ^ (w - b * l - 1)) ∧
      (∀ i j, i < s.length + 1 → j < l → -(2 ^ (b - 1) : Int) ≤ d i j ∧ d i j ≤ 2 ^ (b - 1)) ∧
      ∀ after, CtFits N k after → ∃ r, privateKeyswitchOne b l N k ksk after before = some r ∧ CtFits N k r ∧
        glwePhase N k key r = const N lam * toRq N P *
          const N (phase s before + ∑ i ∈ Finset.range s.length, s.getD i 0 * (before.getD i 0 - c i) -
            (before.getD s.length 0 - c s.length)) -
          ∑ i ∈ Finset.range (s.length + 1), ∑ j ∈ Finset.range l, (d i j : Rq (BitVec w) N) * err i j := by
  have hr0 : CtFits N k (List.replicate ((k + 1) * N) (0#w)) := by simp [CtFits]
  obtain ⟨c, d, h1, h2, h3, h4⟩ := blocks_spec hN b l (s.length + 1) hv key ksk _ err hk before hb _ hr0
  refine ⟨c, d, h1, h2, fun after ha => ⟨_, rfl, ?_, ?_⟩⟩
  · rw [List.map_const', ha]; exact h3
  · rw [List.map_const', ha, h4, phase_zero, zero_sub]
    congr 1
    rw [Finset.sum_range_succ]
    have e1 : ∀ i ∈ Finset.range s.length, const N (c i) * (const N (lam * (s ++ [-1]).getD i 0) * toRq N P) =
        const N lam * toRq N P * const N (s.getD i 0 * c i) := by
      intro i hi
      have : (s ++ [-1]).getD i 0 = s.getD i 0 := by
        rw [List.getD_eq_getElem?_getD, List.getElem?_append_left (Finset.mem_range.1 hi),
          List.getD_eq_getElem?_getD]
      rw [this, const_mul, const_mul]; ring
    have e2 : (s ++ [-1]).getD s.length 0 = (-1 : BitVec w) := by
      simp [List.getD_eq_getElem?_getD]
    have e3 : phase s before + ∑ i ∈ Finset.range s.length, s.getD i 0 * (before.getD i 0 - c i) -
        (before.getD s.length 0 - c s.length) = c s.length - ∑ i ∈ Finset.range s.length, s.getD i 0 * c i := by
      have : ∑ i ∈ Finset.range s.length, s.getD i 0 * (before.getD i 0 - c i) =
          ∑ i ∈ Finset.range s.length, before.getD i 0 * s.getD i 0 - ∑ i ∈ Finset.range s.length, s.getD i 0 * c i := by
        rw [← Finset.sum_sub_distrib]
        exact Finset.sum_congr rfl fun i _ => by ring
      rw [this, phase]; ring
    rw [Finset.sum_congr rfl e1, ← Finset.mul_sum, e2, e3, const_sub, const_sum]
    have e4 : const N (lam * (-1 : BitVec w)) = - const N lam := by
      rw [mul_neg, mul_one]; simp [const]
    rw [e4]
    ring

/-- C33, error bound: with a binary input key, key errors at most `B` and `λ P` with integer coefficients at
most `A`, the phase is `λ P phase(before)` up to an error with integer coefficients at most
`(n + 1) 2^(w-bl-1) A + (n + 1) l 2^(b-1) B`. -/
theorem C33_error_bound {N k : Nat} (hN : 0 < N) (b l : Nat) (hv : ValidParams w b l)
    (s key ksk P before : List (BitVec w)) (lam : BitVec w) (err : Nat → Nat → Rq (BitVec w) N) (A B : Int)
    (hk : KeyEnc N k b l (s.length + 1) key ksk (fun i => const N (lam * (s ++ [-1]).getD i 0) * toRq N P) err)
    (he : ∀ i j, i < s.length + 1 → j < l → Small N B (err i j)) (hA : Small N A (const N lam * toRq N P))
    (hs : BinaryKey s) (hb : Fits s before) :
    ∃ e : Rq (BitVec w) N, Small N ((s.length + 1) * 2 ^ (w - b * l - 1) * A +
        (s.length + 1) * (l * (2 ^ (b - 1) * B))) e ∧
      ∀ after, CtFits N k after → ∃ r, privateKeyswitchOne b l N k ksk after before = some r ∧ CtFits N k r ∧
        glwePhase N k key r = const N lam * toRq N P * const N (phase s before) + e := by
  obtain ⟨c, d, h1, h2, h3⟩ := C33_one hN b l hv s key ksk P before lam err hk hb
  obtain ⟨R, g1, g2⟩ := rounding_int (fun i => s.getD i 0) (fun i => before.getD i 0) c s.length
    (2 ^ (w - b * l - 1)) (fun i hi => hs _ (by
      simp [List.getD_eq_getElem?_getD, List.getElem?_eq_getElem hi])) (fun i hi => (h1 i (by omega)).2)
  obtain ⟨-, b1, b2⟩ := h1 s.length (by omega)
  have hdig := small_digits hN (s.length + 1) l b d err B h2 he
  have hA0 := hA.nonneg hN
  refine ⟨((R - signedDiff (before.getD s.length 0) (c s.length) : Int) : Rq (BitVec w) N) * (const N lam * toRq N P) -
      ∑ i ∈ Finset.range (s.length + 1), ∑ j ∈ Finset.range l, (d i j : Rq (BitVec w) N) * err i j, ?_, ?_⟩
  · push_cast at hdig
    refine ((small_int_mul _ hA).mono ?_).sub hdig
    refine mul_le_mul_of_nonneg_right ?_ hA0
    have := abs_sub R (signedDiff (before.getD s.length 0) (c s.length))
    have h3 : |signedDiff (before.getD s.length 0) (c s.length)| ≤ 2 ^ (w - b * l - 1) := abs_le.2 ⟨b1, b2.le⟩
    rw [add_mul, one_mul]; omega
  · intro after ha
    obtain ⟨r, r1, r2, r3⟩ := h3 after ha
    refine ⟨r, r1, r2, ?_⟩
    have e : phase s before + ∑ i ∈ Finset.range s.length, s.getD i 0 * (before.getD i 0 - c i) -
        (before.getD s.length 0 - c s.length) = phase s before +
          ((R - signedDiff (before.getD s.length 0) (c s.length) : Int) : BitVec w) := by
      rw [g1, Int.cast_sub, signedDiff, BV.intCast_toInt]; ring
    rw [r3, e, const_add, const_int]
    ring

/-- C33, packing `m` ciphertexts: the phase is `λ P Σ_t X^t phase(c_t)` up to an error with integer
coefficients at most `m ((n + 1) 2^(w-bl-1) A + (n + 1) l 2^(b-1) B)`. -/
theorem C33_packing (bld : Csprng.Build) {N k : Nat} (hN : 0 < N) (b l m : Nat) (hv : ValidParams w b l)
    (s key ksk P output input : List (BitVec w)) (lam : BitVec w) (err : Nat → Nat → Rq (BitVec w) N) (A B : Int)
    (hk : KeyEnc N k b l (s.length + 1) key ksk (fun i => const N (lam * (s ++ [-1]).getD i 0) * toRq N P) err)
    (he : ∀ i j, i < s.length + 1 → j < l → Small N B (err i j)) (hA : Small N A (const N lam * toRq N P))
    (hs : BinaryKey s) (ho : CtFits N k output) (hin : input.length = m * (s.length + 1))
    (hm : bld = .release ∨ m ≤ N) :
    ∃ (r : List (BitVec w)) (e : Rq (BitVec w) N),
      privatePackingKeyswitch bld b l N k (s.length + 1) ksk output input = some r ∧ CtFits N k r ∧
      Small N (m * ((s.length + 1) * 2 ^ (w - b * l - 1) * A + (s.length + 1) * (l * (2 ^ (b - 1) * B)))) e ∧
      glwePhase N k key r = const N lam * toRq N P *
        ∑ t ∈ Finset.range m, Xq (BitVec w) N ^ t * const N (phase s (block (s.length + 1) input t)) + e := by
  have hpos : 0 < s.length + 1 := by omega
  have hcl := chunks_length _ hpos _ _ hin
  have hone : ∀ t, ∃ e : Rq (BitVec w) N, t < m → Small N ((s.length + 1) * 2 ^ (w - b * l - 1) * A +
        (s.length + 1) * (l * (2 ^ (b - 1) * B))) e ∧
      ∀ after, CtFits N k after → ∃ r, privateKeyswitchOne b l N k ksk after (block (s.length + 1) input t) = some r ∧
        CtFits N k r ∧ glwePhase N k key r =
          const N lam * toRq N P * const N (phase s (block (s.length + 1) input t)) + e := by
    intro t
    by_cases ht : t < m
    · obtain ⟨e, h⟩ := C33_error_bound hN b l hv s key ksk P (block (s.length + 1) input t) lam err A B hk he hA hs
        (block_len _ m t input hin ht)
      exact ⟨e, fun _ => h⟩
    · exact ⟨0, fun h => absurd h ht⟩
  choose e he' using hone
  have h0 : CtFits N k (output.map fun _ => 0#w) := by rw [CtFits, List.length_map]; exact ho
  obtain ⟨r, g1, g2, g3⟩ := packLoop_spec hN key (privateKeyswitchOne b l N k ksk) (chunks (s.length + 1) input)
    (fun t => const N lam * toRq N P * const N (phase s (block (s.length + 1) input t)) + e t)
    0 _ _ h0 h0 (by
      intro t ct hct after ha
      have ht : t < m := by rw [← hcl]; exact (List.getElem?_eq_some_iff.1 hct).1
      have : ct = block (s.length + 1) input t := by
        rw [chunks_eq _ hpos _ _ hin] at hct
        simpa [ht] using hct.symm
      rw [this]
      exact (he' t ht).2 after ha)
  refine ⟨r, ∑ t ∈ Finset.range m, Xq (BitVec w) N ^ t * e t, ?_, g2,
    small_sum_const _ _ (fun t ht => (he' t ht).1.monomial hN t), ?_⟩
  · rw [privatePackingKeyswitch, if_neg]
    · exact g1
    · rw [hcl]
      rintro ⟨h1, h2⟩
      rcases hm with hm | hm
      · rw [hm] at h1; cases h1
      · omega
  · rw [g3, hcl, List.map_const', phase_zero, zero_add, Finset.mul_sum, ← Finset.sum_add_distrib]
    refine Finset.sum_congr rfl fun t _ => ?_
    rw [Nat.zero_add]; ring

/-- C33: in debug builds, more than `N` ciphertexts panic. -/
theorem C33_too_many (b l N k L m : Nat) (hL : 0 < L) (ksk output input : List (BitVec w))
    (hin : input.length = m * L) (hm : N < m) :
    privatePackingKeyswitch .debug b l N k L ksk output input = none := by
  rw [privatePackingKeyswitch, if_pos ⟨rfl, by rw [chunks_length _ hL _ _ hin]; exact hm⟩]

/-! ### Generated keys -/

theorem rep_forall {A : Type} (s : Samp A) (Q : A → Prop) (h : ∀ g x g', s g = some (x, g') → Q x) :
    ∀ (n : Nat) (g : Src) (xs : List A) (g' : Src), rep n s g = some (xs, g') → ∀ x ∈ xs, Q x
  | 0, g, xs, g', hr => by
    simp only [rep, Option.some.injEq, Prod.mk.injEq] at hr
    rw [← hr.1]; simp
  | n + 1, g, xs, g', hr => by
    simp only [rep] at hr
    split at hr
    · cases hr
    · rename_i x g1 e1
      split at hr
      · cases hr
      · rename_i ys g2 e2
        simp only [Option.some.injEq, Prod.mk.injEq] at hr
        obtain ⟨rfl, rfl⟩ := hr
        intro y hy
        rcases List.mem_cons.1 hy with rfl | hy
        · exact h _ _ _ e1
        · exact rep_forall s Q h n _ _ _ e2 y hy

theorem small_draws {f : GaussianFn w} {E : Int} (hf : Pbs.NoiseBound f E) {N n : Nat} {g g' : Src}
    {es : List (List (BitVec w))} (hr : rep n (randomNoiseTensor f N) g = some (es, g')) (i : Nat) (hi : i < n)
    (hl : (es.getD i []).length = N) : Small N E (toRq N (es.getD i [])) := by
  apply small_toRq N _ hl
  have hlen := rep_length _ _ _ _ _ hr
  have hmem : es.getD i [] ∈ es := by
    rw [List.getD_eq_getElem?_getD, List.getElem?_eq_getElem (by omega)]
    exact List.getElem_mem _
  exact rep_forall _ (fun e => ∀ x ∈ e, |x.toInt| ≤ E)
    (fun g e g' h => Pbs.noiseTensor_bound f E hf N g g' e h) _ _ _ _ hr _ hmem

/-- C32, end to end: generate a packing key from the binary LWE key `s` to the GLWE key with noise at most
`E`, and pack `m ≤ N` ciphertexts. Coefficient `t` of the decryption is `phase(c_t)` up to
`n 2^(w-bl-1) + m n l 2^(b-1) E`. -/
theorem C32_generated_key (f : GaussianFn w) (E : Int) (hf : Pbs.NoiseBound f E) (bld : Csprng.Build) {N k : Nat}
    (hN : 0 < N) (b l m : Nat) (hv : ValidParams w b l) (s key ksk0 ksk output input buf : List (BitVec w))
    (g g' : EncGen) (hs0 : ksk0.length = s.length * (l * ((k + 1) * N)))
    (hgen : fillPackingKey f s key b l N k ksk0 g = some (ksk, g')) (hs : BinaryKey s) (hkf : KeyFits N k key)
    (ho : CtFits N k output) (hin : input.length = m * (s.length + 1)) (hm : m ≤ N) (hbuf : buf.length = N) :
    ∃ (r : List (BitVec w)) (e : Nat → Int),
      packingKeyswitch bld b l N k (s.length + 1) ksk output input = some r ∧ CtFits N k r ∧
      ∀ t, t < N → (decryptGlwe N key buf r).getD t 0 =
          (if t < m then phase s (block (s.length + 1) input t) else 0) + ((e t : Int) : BitVec w) ∧
        |e t| ≤ (if t < m then s.length * 2 ^ (w - b * l - 1) else 0) +
          m * (s.length * (l * (2 ^ (b - 1) * E))) := by
  obtain ⟨es, hr, hl, hk⟩ := fillPackingKey_spec hN hv.level hkf hs0 hgen
  refine C32_decrypt bld hN b l m hv s key ksk output input buf _ E hk (fun i j hi hj => ?_) hs hkf ho hin hm hbuf
  refine small_draws hf hr _ ?_ (hl i j hi hj)
  calc i * l + j < i * l + l := by omega
    _ = (i + 1) * l := by ring
    _ ≤ s.length * l := Nat.mul_le_mul_right _ hi

/-- C33, end to end, for the sequential and the parallel key generation under any schedule. -/
theorem C33_generated_key (f : GaussianFn w) (E : Int) (hf : Pbs.NoiseBound f E) {N k : Nat}
    (hN : 0 < N) (b l : Nat) (hv : ValidParams w b l) (s key ksk0 ksk P before : List (BitVec w)) (lam : BitVec w)
    (A : Int) (g g' : EncGen) (hs0 : ksk0.length = (s.length + 1) * (l * ((k + 1) * N))) (hP : P.length = N)
    (hA : Small N A (const N lam * toRq N P)) (sched : List Nat) (hsch : sched.Perm (List.range (s.length + 1)))
    (hgen : parFillPrivateKey f s key b l N k lam P sched ksk0 g = some (ksk, g'))
    (hs : BinaryKey s) (hkf : KeyFits N k key) (hb : Fits s before) :
    ∃ e : Rq (BitVec w) N, Small N ((s.length + 1) * 2 ^ (w - b * l - 1) * A +
        (s.length + 1) * (l * (2 ^ (b - 1) * E))) e ∧
      ∀ after, CtFits N k after → ∃ r, privateKeyswitchOne b l N k ksk after before = some r ∧ CtFits N k r ∧
        glwePhase N k key r = const N lam * toRq N P * const N (phase s before) + e := by
  obtain ⟨-, -, es, hr, hl, hk⟩ := parFillPrivateKey_spec hN hv.level hkf hP hs0 sched hsch hgen
  refine C33_error_bound hN b l hv s key ksk P before lam _ A E hk (fun i j hi hj => ?_) hA hs hb
  obtain ⟨gn, h⟩ := hr i hi
  exact small_draws hf h j hj (hl i j hi hj)

/-- C33, C18: the parallel key generation gives the same key, panics and final generator state for every
schedule, in particular those of the sequential one. -/
theorem C33_schedule (f : GaussianFn w) (s key : List (BitVec w)) (b l N k : Nat) (lam : BitVec w)
    (P ksk : List (BitVec w)) (g : EncGen) (sched : List Nat) (hp : sched.Perm (List.range (s.length + 1))) :
    parFillPrivateKey f s key b l N k lam P sched ksk g = fillPrivateKey f s key b l N k lam P ksk g := by
  simp only [fillPrivateKey, parFillPrivateKey]
  split
  · rfl
  · rw [parFor_perm _ _ _ (hp.nodup_iff.2 List.nodup_range) hp]

/-- The private functional key generation consumes exactly the bytes of its forks, and succeeds only if
they are available. -/
theorem C33_budget (f : GaussianFn w) (s key ksk ksk' P : List (BitVec w)) (b l N k : Nat) (hN : 0 < N)
    (hl : 0 < l) (hk : KeyFits N k key) (lam : BitVec w) (hP : P.length = N) (g g' : EncGen)
    (hs : ksk.length = (s.length + 1) * (l * ((k + 1) * N)))
    (h : fillPrivateKey f s key b l N k lam P ksk g = some (ksk', g')) :
    g'.mask = g.mask.skip ((s.length + 1) * (l * (k * N * (w / 8)))) ∧
    g'.noise = g.noise.skip ((s.length + 1) * (l * (N * 256))) :=
  have := parFillPrivateKey_spec hN hl hk hP hs _ (List.Perm.refl _) h
  ⟨this.1, this.2.1⟩

/-! ### Examples -/

/-- Noiseless keys exist: key blocks of trivial ciphertexts. Here width 16, `N = 2`, `k = 1`, base `2^4`,
two levels, LWE key `[1, 0]`, GLWE key `[1, 1]`; a generated packing key packs two ciphertexts of phases
`0x3000` and `0x5000`. The noise function is 1, so `NoiseBound` holds with `E = 1`. -/
example :
    let f : GaussianFn 16 := { accept := fun _ _ => true, value := fun _ _ => (1#16, 1#16) }
    let g : EncGen := { mask := ⟨fun p => BitVec.ofNat 8 (p * p + 7), 1, 10000⟩, noise := ⟨fun _ => 1#8, 1, 10000⟩ }
    ((fillPackingKey f [1#16, 0#16] [1#16, 1#16] 4 2 2 1 (List.replicate 16 0#16) g).bind fun ksk =>
      packingKeyswitch .debug 4 2 2 1 3 ksk.1 [9#16, 9#16, 9#16, 9#16]
        [0x1234#16, 0x0f81#16, 0x4234#16, 0x2100#16, 0x7777#16, 0x7100#16]).map
        (decryptGlwe 2 [1#16, 1#16] [0#16, 0#16]) = some [0x3041#16, 0x4feb#16] ∧
    Pbs.NoiseBound f 1 ∧ ValidParams 16 4 2 ∧ BinaryKey [1#16, 0#16] ∧
    phase [1#16, 0#16] [0x1234#16, 0x0f81#16, 0x4234#16] = 0x3000#16 ∧
    phase [1#16, 0#16] [0x2100#16, 0x7777#16, 0x7100#16] = 0x5000#16 := by
  refine ⟨by decide +kernel, fun _ _ _ => ⟨by simp, by simp⟩, ⟨by omega, by omega, by omega⟩, ?_, by decide, by decide⟩
  intro x hx
  simp only [List.mem_cons, List.not_mem_nil, or_false] at hx
  rcases hx with rfl | rfl
  · right; rfl
  · left; rfl

/-- C33 on a concrete case: the function `x ↦ -x` (`λ = -1`), the polynomial `1 + 2X`, a generated key, a
ciphertext of phase `0x3000`: the result decrypts to `-0x3000 - 0x6000 X` minus 10 in each coefficient. The
hypothesis on `λ P` holds with `A = 2`. -/
example :
    let f : GaussianFn 16 := { accept := fun _ _ => true, value := fun _ _ => (1#16, 1#16) }
    let g : EncGen := { mask := ⟨fun p => BitVec.ofNat 8 (p * p + 7), 1, 10000⟩, noise := ⟨fun _ => 1#8, 1, 10000⟩ }
    ((fillPrivateKey f [1#16, 0#16] [1#16, 1#16] 4 2 2 1 (-1#16) [1#16, 2#16] (List.replicate 24 0#16) g).bind
      fun ksk => privateKeyswitchOne 4 2 2 1 ksk.1 [9#16, 9#16, 9#16, 9#16]
        [0x1234#16, 0x0f81#16, 0x4234#16]).map (decryptGlwe 2 [1#16, 1#16] [0#16, 0#16]) =
      some [-0x3000#16 - 10#16, -0x6000#16 - 10#16] := by decide +kernel

example : Small 2 2 (const 2 (-1 : BitVec 16) * toRq 2 [1#16, 2#16]) := by
  have e : ([1#16, 2#16].map fun c => c * (-1 : BitVec 16)) = [-1#16, -2#16] := by
    simp only [List.map_cons, List.map_nil, mul_neg, mul_one]
  rw [mul_comm, ← toRq_map_mul, e]
  refine small_toRq 2 _ rfl 2 fun c hc => ?_
  simp only [List.mem_cons, List.not_mem_nil, or_false] at hc
  rcases hc with rfl | rfl <;> decide

end Verif.Pks
