import Verif.Pks.Props2
/-
The list of private functional packing keyswitch keys used by the circuit bootstrap.

Source: /repo/concrete-core/src/commons/crypto/glwe/keyswitch.rs:1695-2160.
-/
namespace Verif.Pks
open Verif Verif.Random Verif.Poly Verif.Glwe Verif.Lwe Verif.Decomp

variable {w : Nat}

/-! ### Model -/

/-- keyswitch.rs:2056-2076 (2128-2147): the polynomials of the keys, those of the GLWE key followed by the
constant `Scalar::MAX`. -/
def cbsPolynomials (N : Nat) (glweKey : List (BitVec w)) : List (List (BitVec w)) :=
  chunks N glweKey ++ [(List.replicate N 0#w).set 0 (BitVec.allOnes w)]

/-- keyswitch.rs:2149-2158 (2079-2086): the job of key `i`: its own generation, here under the inner
schedule `inner i`. The function is `x ↦ 0 - x`. -/
def cbsJob (f : GaussianFn w) (lweKey glweKey : List (BitVec w)) (b l N k : Nat)
    (inner : Nat → List Nat) (gens : List EncGen) (i : Nat) (ksk : List (BitVec w)) :
    Option (List (BitVec w)) :=
  match (cbsPolynomials N glweKey)[i]?, gens[i]? with
  | some P, some g =>
    (parFillPrivateKey f lweKey glweKey b l N k (0#w - 1#w) P (inner i) ksk g).map (·.1)
  | _, _ => some ksk

/-- keyswitch.rs:2091-2159 `par_fill_with_fpksk_for_circuit_bootstrap` on a list of `count` keys, run in the
order `sched`. In debug builds `count` must be the GLWE size (2108-2114). -/
def parFillCbsKeys (bld : Csprng.Build) (f : GaussianFn w) (lweKey glweKey : List (BitVec w)) (b l N k count : Nat)
    (sched : List Nat) (inner : Nat → List Nat) (ksks : List (BitVec w)) (g : EncGen) :
    Option (List (BitVec w) × EncGen) :=
  if bld = .debug ∧ count ≠ k + 1 then none
  else
    match g.forkCbsPfpkskToPfpksk w l (k + 1) N (lweKey.length + 1) count with
    | (.error _, _) => none
    | (.ok gens, g') =>
      match parFor (cbsJob f lweKey glweKey b l N k inner gens) sched
        (chunks ((lweKey.length + 1) * (l * ((k + 1) * N))) ksks) with
      | none => none
      | some keys => some (keys.flatten, g')

/-- keyswitch.rs:2023-2088 `fill_with_fpksk_for_circuit_bootstrap`: the keys and their blocks in order. -/
def fillCbsKeys (bld : Csprng.Build) (f : GaussianFn w) (lweKey glweKey : List (BitVec w)) (b l N k count : Nat)
    (ksks : List (BitVec w)) (g : EncGen) : Option (List (BitVec w) × EncGen) :=
  parFillCbsKeys bld f lweKey glweKey b l N k count (List.range count)
    (fun _ => List.range (lweKey.length + 1)) ksks g

/-! ### Specification -/

/-- `ksks` is the list of keys of a circuit bootstrap from the LWE key `s` to the GLWE key `key`: key `r`
is a private functional key for multiplication by `-s_r` (`r < k`) or by `1` (`r = k`), that is by the factor
of row `r` of a GGSW ciphertext, with errors of at most `B` per coefficient. -/
def CbsKeys (N k b l : Nat) (s key ksks : List (BitVec w)) (B : Int) : Prop :=
  ksks.length = (k + 1) * ((s.length + 1) * (l * ((k + 1) * N))) ∧
  ∀ r, r ≤ k → ∃ err : Nat → Nat → Rq (BitVec w) N,
    (∀ i j, i < s.length + 1 → j < l → Small N B (err i j)) ∧
    KeyEnc N k b l (s.length + 1) key (block ((s.length + 1) * (l * ((k + 1) * N))) ksks r)
      (fun i => const N ((s ++ [-1]).getD i 0) * rowFactor N k key r) err

/-! ### Proofs -/

theorem cbsPolynomials_get {N k : Nat} (hN : 0 < N) {key : List (BitVec w)} (hk : KeyFits N k key) (r : Nat)
    (hr : r ≤ k) : ∃ P, (cbsPolynomials N key)[r]? = some P ∧ P.length = N ∧
      const N (-1 : BitVec w) * toRq N P = rowFactor N k key r := by
  have hcl := chunks_length N hN k key hk
  by_cases h : r < k
  · refine ⟨block N key r, ?_, block_len N k r key hk h, ?_⟩
    · rw [cbsPolynomials, List.getElem?_append_left (by omega), chunks_eq N hN k key hk]; simp [h]
    · rw [rowFactor, if_pos h, const, map_neg, map_one, neg_one_mul]
  · have : r = k := by omega
    subst this
    refine ⟨(List.replicate N 0#w).set 0 (BitVec.allOnes w), ?_, by simp, ?_⟩
    · rw [cbsPolynomials, List.getElem?_append_right (by omega), hcl, Nat.sub_self]; rfl
    · obtain ⟨m, rfl⟩ : ∃ m, N = m + 1 := ⟨N - 1, by omega⟩
      rw [rowFactor, if_neg h, List.replicate_succ, List.set_cons_zero,
        show toRq (m + 1) (BitVec.allOnes w :: List.replicate m 0#w) = _ from toRq_const _ _ _, ← const_mul,
        show BitVec.allOnes w = -1 by rw [← BitVec.neg_one_eq_allOnes]; rfl]
      rw [neg_mul_neg, mul_one, const, map_one]

/-- C33, C46: the generation of the keys of the circuit bootstrap, under any schedule: key `r` multiplies by
the row factor `r`, the errors are draws of the noise, and exactly the bytes of the forks are consumed. -/
theorem C33_cbs_keys (bld : Csprng.Build) (f : GaussianFn w) (E : Int) (hf : Pbs.NoiseBound f E) {N k : Nat} (hN : 0 < N)
    (b l : Nat) (hl : 0 < l) (s key ksks ksks' : List (BitVec w)) (hk : KeyFits N k key) (g g' : EncGen)
    (hs : ksks.length = (k + 1) * ((s.length + 1) * (l * ((k + 1) * N)))) (sched : List Nat)
    (hp : sched.Perm (List.range (k + 1))) (inner : Nat → List Nat)
    (hi : ∀ i, i < k + 1 → (inner i).Perm (List.range (s.length + 1)))
    (h : parFillCbsKeys bld f s key b l N k (k + 1) sched inner ksks g = some (ksks', g')) :
    CbsKeys N k b l s key ksks' E ∧
    g'.mask = g.mask.skip ((k + 1) * ((s.length + 1) * (l * (k * N * (w / 8))))) ∧
    g'.noise = g.noise.skip ((k + 1) * ((s.length + 1) * (l * (N * 256)))) := by
  have hkN : 0 < (k + 1) * N := Nat.mul_pos (by omega) hN
  have hpos : 0 < (s.length + 1) * (l * ((k + 1) * N)) := Nat.mul_pos (by omega) (Nat.mul_pos hl hkN)
  rw [parFillCbsKeys, if_neg (by simp)] at h
  simp only [EncGen.forkCbsPfpkskToPfpksk] at h
  split at h
  · cases h
  · rename_i gens g1 hf1
    obtain ⟨-, -, -, -, -, hg1, hgens⟩ := encFork_ok hf1
    have hmb : maskBytesPerPfpksk w l (k + 1) N (s.length + 1) = (s.length + 1) * (l * (k * N * (w / 8))) := by
      simp only [maskBytesPerPfpksk, maskBytesPerPfpkskChunk, maskBytesPerGlwe, maskBytesPerPolynomial,
        maskBytesPerCoef]
      rw [Nat.add_sub_cancel]; ring
    have hnb : noiseBytesPerPfpksk l N (s.length + 1) = (s.length + 1) * (l * (N * 256)) := by
      simp only [noiseBytesPerPfpksk, noiseBytesPerPfpkskChunk, noiseBytesPerGlwe, noiseBytesPerPolynomial,
        noiseBytesPerCoef]
    rw [hmb, hnb] at hg1 hgens
    split at h
    · cases h
    · rename_i keys hpar
      simp only [Option.some.injEq, Prod.mk.injEq] at h
      obtain ⟨rfl, rfl⟩ := h
      refine ⟨?_, by rw [hg1], by rw [hg1]⟩
      have hjob : ∀ i c c', i < k + 1 → c.length = (s.length + 1) * (l * ((k + 1) * N)) →
          cbsJob f s key b l N k inner gens i c = some c' →
          c'.length = (s.length + 1) * (l * ((k + 1) * N)) ∧ ∃ err : Nat → Nat → Rq (BitVec w) N,
            (∀ i j, i < s.length + 1 → j < l → Small N E (err i j)) ∧
            KeyEnc N k b l (s.length + 1) key c'
              (fun t => const N ((s ++ [-1]).getD t 0) * rowFactor N k key i) err := by
        intro i c c' hik hc hj
        obtain ⟨P, p1, p2, p3⟩ := cbsPolynomials_get hN hk i (by omega)
        have e2 : ∃ gi, gens[i]? = some gi := by
          rw [hgens]; simp [List.getElem?_range hik]
        obtain ⟨gi, e2⟩ := e2
        simp only [cbsJob, p1, e2] at hj
        obtain ⟨⟨ct, gi'⟩, he, rfl⟩ := Option.map_eq_some_iff.1 hj
        obtain ⟨-, -, es, h1, h2, h3⟩ := parFillPrivateKey_spec hN hl hk p2 hc (inner i) (hi i hik) he
        refine ⟨h3.1, fun t j => toRq N ((es t).getD j []), fun t j ht hj => ?_, h3.1, fun t ht j hj => ?_⟩
        · obtain ⟨gn, hr⟩ := h1 t ht
          exact small_draws hf hr j hj (h2 t j ht hj)
        · rw [h3.2 t ht j hj, ← p3]
          have : (0#w - 1#w) * (s ++ [-1]).getD t 0 = (s ++ [-1]).getD t 0 * (-1 : BitVec w) := by
            have : (0#w - 1#w) = -1 := zero_sub _
            rw [this, mul_comm]
          beta_reduce
          rw [this, const_mul, mul_assoc (const N _) (const N _) (toRq N P)]
      have hres := (parFor_chunks _ (k + 1) _ hpos ksks hs sched hp
        (fun i c c' hi hc hj => (hjob i c c' hi hc hj).1) keys.flatten).1 (by rw [hpar]; rfl)
      exact ⟨hres.1, fun r hr => (hjob r _ _ (by omega) (block_len _ _ r ksks hs (by omega)) (hres.2 r (by omega))).2⟩

/-- C18: the keys of the circuit bootstrap do not depend on the schedules. -/
theorem C33_cbs_schedule (bld : Csprng.Build) (f : GaussianFn w) (s key : List (BitVec w)) (b l N k count : Nat)
    (ksks : List (BitVec w)) (g : EncGen) (sched : List Nat) (inner : Nat → List Nat)
    (hp : sched.Perm (List.range count)) (hi : ∀ i, (inner i).Perm (List.range (s.length + 1))) :
    parFillCbsKeys bld f s key b l N k count sched inner ksks g = fillCbsKeys bld f s key b l N k count ksks g := by
  have hjob : ∀ gens, cbsJob f s key b l N k inner gens =
      cbsJob f s key b l N k (fun _ => List.range (s.length + 1)) gens := by
    intro gens
    funext i c
    simp only [cbsJob]
    split
    · rw [C33_schedule _ _ _ _ _ _ _ _ _ _ _ _ (hi i)]; rfl
    · rfl
  simp only [fillCbsKeys, parFillCbsKeys]
  split
  · rfl
  · split
    · rfl
    · rw [hjob, parFor_perm _ _ _ (hp.nodup_iff.2 List.nodup_range) hp]

/-- A list of another size panics in debug builds. -/
theorem C33_cbs_count (f : GaussianFn w) (s key : List (BitVec w)) (b l N k count : Nat) (hc : count ≠ k + 1)
    (ksks : List (BitVec w)) (g : EncGen) : fillCbsKeys .debug f s key b l N k count ksks g = none := by
  rw [fillCbsKeys, parFillCbsKeys, if_pos ⟨rfl, hc⟩]

/-- C33 on a concrete case: the keys of a circuit bootstrap are generated (width 16, `N = 2`, `k = 1`, base
`2^4`, two levels, LWE key `[1, 0]`, GLWE key `[1, 1]`), and a ciphertext of phase `0x3000` is switched with
both: the results decrypt to about `-0x3000 (1 + X)` and `0x3000`. -/
example :
    let f : GaussianFn 16 := { accept := fun _ _ => true, value := fun _ _ => (1#16, 1#16) }
    let g : EncGen := { mask := ⟨fun p => BitVec.ofNat 8 (p * p + 7), 1, 10000⟩, noise := ⟨fun _ => 1#8, 1, 10000⟩ }
    (fillCbsKeys .debug f [1#16, 0#16] [1#16, 1#16] 4 2 2 1 2 (List.replicate 48 0#16) g).map
      (fun ks => (List.range 2).map fun r => (privateKeyswitchOne 4 2 2 1 (block 24 ks.1 r) [9#16, 9#16, 9#16, 9#16]
        [0x1234#16, 0x0f81#16, 0x4234#16]).map (decryptGlwe 2 [1#16, 1#16] [0#16, 0#16])) =
      some [some [-0x3000#16 - 10#16, -0x3000#16 - 10#16], some [0x3000#16 - 10#16, -10#16]] := by decide +kernel

end Verif.Pks
