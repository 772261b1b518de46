import Verif.Random.FailProps
import Verif.Pks.Budget
/-
C112 for GGSW ciphertexts, and for private functional packing keyswitch keys: each chunk of such a key takes the noise of its
levels from one generator.
-/
namespace Verif.Random
open Verif.Float Verif.Glwe Verif.Random.Gauss

variable {w : ℕ}

/-! ### Several polynomials from one generator -/

theorem lrep_succ {A : Type} (l : LSamp A) (n : ℕ) (bs : List (BitVec 8)) :
    lrep (n + 1) l bs = (l bs).bind fun q => (lrep n l q.2).map fun q' => (q.1 :: q'.1, q'.2) := by
  rw [lrep]
  cases l bs with
  | none => rfl
  | some q => simp only [Option.bind_some]; cases lrep n l q.2 <;> rfl

theorem lrep_add_rest {A : Type} (l : LSamp A) (b : ℕ) : ∀ (a : ℕ) (bs : List (BitVec 8)),
    (lrep (a + b) l bs).map Prod.snd = ((lrep a l bs).map Prod.snd).bind fun r => (lrep b l r).map Prod.snd
  | 0, bs => by simp [lrep]
  | a + 1, bs => by
    rw [show a + 1 + b = a + b + 1 by omega, lrep, lrep]
    cases h : l bs with
    | none => rfl
    | some q =>
      obtain ⟨x, r⟩ := q
      have ih := lrep_add_rest l b a r
      simp only
      cases h1 : lrep a l r with
      | none =>
        rw [h1] at ih
        cases h2 : lrep (a + b) l r with
        | none => rfl
        | some q2 => rw [h2] at ih; cases ih
      | some q1 =>
        rw [h1] at ih
        simp only [Option.map_some, Option.bind_some] at ih ⊢
        rw [← ih]
        cases h2 : lrep (a + b) l r with
        | none => rfl
        | some q2 => rfl

theorem lrep_tensor_rest (f : GaussianFn w) (N : ℕ) : ∀ (l : ℕ) (bs : List (BitVec 8)),
    (lrep l (ltensor f N) bs).map Prod.snd = (lrep (l * ((N + 1) / 2)) (lgauss f) bs).map Prod.snd
  | 0, bs => by simp [lrep]
  | l + 1, bs => by
    rw [lrep_succ, Nat.add_mul, Nat.one_mul, Nat.add_comm (l * _), lrep_add_rest, ltensor]
    cases h : lrep ((N + 1) / 2) (lgauss f) bs with
    | none => rfl
    | some q =>
      simp only [Option.map_some, Option.bind_some]
      rw [← lrep_tensor_rest f N l q.2]
      cases lrep l (ltensor f N) q.2 with
      | none => rfl
      | some q2 => rfl

theorem isNone_rest {A : Type} (o : Option (A × List (BitVec 8))) : o.isNone = (o.map Prod.snd).isNone := by cases o <;> rfl

theorem lfails_tensors (f : GaussianFn w) (N l L : ℕ) :
    lfails (lrep l (ltensor f N)) L = lfails (lrep (l * ((N + 1) / 2)) (lgauss f)) L := by
  refine Finset.sum_congr rfl fun bs _ => ?_
  rw [isNone_rest, lrep_tensor_rest f N l, ← isNone_rest]

/-- A generator with `256 l N` bytes for `l` polynomials of size `N`. -/
theorem lfails_polys (f : GaussianFn w) (hf : f.accept = accept) (N l : ℕ) (hN : 0 < N) (hl : 0 < l) :
    lfails (lrep l (ltensor f N)) (l * (N * 256)) * 2 ^ (24 * (l * N)) ≤ 256 ^ (l * (N * 256)) := by
  have hpos : 0 < l * ((N + 1) / 2) := Nat.mul_pos hl (by omega)
  obtain ⟨m, hm⟩ : ∃ m, l * ((N + 1) / 2) = m + 1 := ⟨l * ((N + 1) / 2) - 1, by omega⟩
  have hm2 : 4 * m ≤ 4 * (l * N) := by
    have : l * ((N + 1) / 2) ≤ l * N := Nat.mul_le_mul_left _ (by omega)
    omega
  have hr := Gauss.refused_le
  have ha := Gauss.accepted_add
  rw [refused] at hr ha
  have hrec := rec_gauss f
  rw [hf] at hrec
  rw [lfails_tensors, hm, show l * (N * 256) = 16 * (16 * (l * N)) + 0 by ring]
  generalize l * N = M at hm2 ⊢
  have h := hrec.many ha hr 0 (by norm_num) (16 * M) m
  rw [pow_zero, Nat.mul_one] at h
  generalize lfails (lrep (m + 1) (lgauss f)) (16 * (16 * M) + 0) = F at h ⊢
  clear hrec ha hr hf hm
  have h19 : (19 : ℕ) ^ (16 * M) * 2 ^ (28 * M) ≤ 2 ^ (96 * M) := by
    rw [pow_mul, pow_mul, pow_mul, ← Nat.mul_pow]
    exact Nat.pow_le_pow_left (by norm_num) M
  have e64 : (64 : ℕ) ^ (16 * M) = 2 ^ (96 * M) := by
    rw [show (64 : ℕ) = 2 ^ 6 by norm_num, ← pow_mul]; congr 1; ring
  have e256 : (256 : ℕ) ^ (16 * (16 * M) + 0) = (2 ^ 128) ^ (16 * M) := by
    rw [show (256 : ℕ) = 2 ^ 8 by norm_num, ← pow_mul, ← pow_mul]; congr 1; ring
  have e16 : (16 : ℕ) ^ m * 2 ^ (24 * M) ≤ 2 ^ (28 * M) := by
    rw [show (16 : ℕ) = 2 ^ 4 by norm_num, ← pow_mul, ← pow_add]
    exact Nat.pow_le_pow_right (by norm_num) (by omega)
  rw [e64] at h
  rw [e256]
  generalize ((2 : ℕ) ^ 128) ^ (16 * M) = T at h ⊢
  refine Nat.le_of_mul_le_mul_right (c := 2 ^ (96 * M)) ?_ (Nat.pow_pos (by norm_num))
  calc F * 2 ^ (24 * M) * 2 ^ (96 * M) = F * 2 ^ (96 * M) * 2 ^ (24 * M) := by ring
    _ ≤ 16 ^ m * 19 ^ (16 * M) * T * 2 ^ (24 * M) := Nat.mul_le_mul_right _ h
    _ = 16 ^ m * 2 ^ (24 * M) * 19 ^ (16 * M) * T := by ring
    _ ≤ 2 ^ (28 * M) * 19 ^ (16 * M) * T := Nat.mul_le_mul_right _ (Nat.mul_le_mul_right _ e16)
    _ = T * (19 ^ (16 * M) * 2 ^ (28 * M)) := by ring
    _ ≤ T * 2 ^ (96 * M) := Nat.mul_le_mul_left _ h19

/-! ### Private functional packing keyswitch keys -/

/-- C112. The generation of a private functional packing keyswitch key of `n + 1` chunks, in parallel: when there are enough
bytes for the masks, at most the fraction `(n + 1) / 2^24lN` of the strings of bytes for the noise make the call panic. -/
theorem C112_private_key (ln : F64 → F64) (d : Dispersion) (N k b l : ℕ) (hw : 8 ≤ w) (hN : 0 < N) (hk : 0 < k) (hl : 0 < l)
    (s key P ksk : List (BitVec w)) (fone : BitVec w) (hP : P.length = N) (hkey : KeyFits N k key) (mask : Src)
    (hs : ksk.length = (s.length + 1) * (l * ((k + 1) * N))) (sched : List ℕ)
    (hp : sched.Perm (List.range (s.length + 1)))
    (hm : mask.pos + (s.length + 1) * (l * (k * N * (w / 8))) ≤ mask.bound) :
    (Finset.univ.filter fun bs : Fin ((s.length + 1) * (l * (N * 256))) → BitVec 8 =>
      (Pks.parFillPrivateKey (noiseFn w ln d) s key b l N k fone P sched ksk ⟨mask, srcOf (List.ofFn bs)⟩).isNone = true).card
        * 2 ^ (24 * (l * N)) ≤ (s.length + 1) * 256 ^ ((s.length + 1) * (l * (N * 256))) := by
  refine union_bound' (s.length + 1) (l * (N * 256)) (24 * (l * N)) (lrep l (ltensor (noiseFn w ln d) N)) (fun bs =>
    (Pks.parFillPrivateKey (noiseFn w ln d) s key b l N k fone P sched ksk ⟨mask, srcOf bs⟩).isNone) ?_
    (lfails_polys (noiseFn w ln d) rfl N l hN hl)
  intro bs hlen hnone
  obtain ⟨i, hi, h⟩ := Pks.C19_private_key_only_noise_fails (noiseFn w ln d) N k b l hN hl s key P ksk fone hP
    ⟨mask, srcOf bs⟩ hkey hs sched hp (Nat.mul_pos (Nat.mul_pos hk hN) (Nat.div_pos hw (by norm_num))) hm
    (by simp only [srcOf]; rw [hlen]; omega) (Option.isNone_iff_eq_none.1 hnone)
  refine ⟨i, hi, ?_⟩
  rw [← ((sim_tensor (noiseFn w ln d) N).rep l).isNone (has_slice ⟨mask, srcOf bs⟩ bs rfl (l * (k * N * (w / 8)))
    (l * (N * 256)) i (by rw [hlen]; exact Nat.mul_le_mul_right _ hi))]
  exact Option.isNone_iff_eq_none.2 h

example : (8 ≤ 32) ∧ [7#32, 0#32].length = 2 ∧ KeyFits 2 1 [1#32, 0#32] ∧
    (List.replicate 24 0#32).length = ([1#32, 0#32].length + 1) * (2 * ((1 + 1) * 2)) ∧
    [2, 0, 1].Perm (List.range ([1#32, 0#32].length + 1)) ∧
    (⟨fun _ => 0, 0, 48⟩ : Src).pos + ([1#32, 0#32].length + 1) * (2 * (1 * 2 * (32 / 8))) ≤
      (⟨fun _ => 0, 0, 48⟩ : Src).bound :=
  ⟨by norm_num, rfl, rfl, rfl, by decide, by decide⟩

/-! ### Keys of the circuit bootstrap -/

theorem cbs_none (bld : Csprng.Build) (f : GaussianFn w) (N k b l : ℕ) (hw : 8 ≤ w) (hN : 0 < N) (hk0 : 0 < k) (hl : 0 < l)
    (s key ksks : List (BitVec w)) (hk : KeyFits N k key) (g : EncGen)
    (hs : ksks.length = (k + 1) * ((s.length + 1) * (l * ((k + 1) * N)))) (sched : List ℕ)
    (hp : sched.Perm (List.range (k + 1))) (inner : ℕ → List ℕ)
    (hi : ∀ i, i < k + 1 → (inner i).Perm (List.range (s.length + 1)))
    (hm : g.mask.pos + (k + 1) * ((s.length + 1) * (l * (k * N * (w / 8)))) ≤ g.mask.bound)
    (hno : g.noise.pos + (k + 1) * ((s.length + 1) * (l * (N * 256))) ≤ g.noise.bound)
    (h : Pks.parFillCbsKeys bld f s key b l N k (k + 1) sched inner ksks g = none) :
    ∃ i < (k + 1) * (s.length + 1), rep l (randomNoiseTensor f N)
      (g.slice (l * (k * N * (w / 8))) (l * (N * 256)) i).noise = none := by
  have hkN : 0 < (k + 1) * N := Nat.mul_pos (by omega) hN
  have hpos : 0 < (s.length + 1) * (l * ((k + 1) * N)) := Nat.mul_pos (by omega) (Nat.mul_pos hl hkN)
  have hwb : 0 < k * N * (w / 8) := Nat.mul_pos (Nat.mul_pos hk0 hN) (Nat.div_pos hw (by norm_num))
  have hmb : maskBytesPerPfpksk w l (k + 1) N (s.length + 1) = (s.length + 1) * (l * (k * N * (w / 8))) := by
    simp only [maskBytesPerPfpksk, maskBytesPerPfpkskChunk, maskBytesPerGlwe, maskBytesPerPolynomial, maskBytesPerCoef]
    rw [Nat.add_sub_cancel]; ring
  have hnb : noiseBytesPerPfpksk l N (s.length + 1) = (s.length + 1) * (l * (N * 256)) := by
    simp only [noiseBytesPerPfpksk, noiseBytesPerPfpkskChunk, noiseBytesPerGlwe, noiseBytesPerPolynomial, noiseBytesPerCoef]
  have hfork := encFork_eq g (k + 1) ((s.length + 1) * (l * (k * N * (w / 8)))) ((s.length + 1) * (l * (N * 256)))
    ⟨by omega, Nat.mul_pos (by omega) (Nat.mul_pos hl hwb), Nat.mul_pos (by omega) (Nat.mul_pos hl (by omega)), hm, hno⟩
  rw [Pks.parFillCbsKeys, if_neg (by simp)] at h
  simp only [EncGen.forkCbsPfpkskToPfpksk, hmb, hnb, hfork] at h
  have hcl := chunks_length _ hpos _ _ hs
  split at h
  · rename_i hpar
    obtain ⟨i, c, hc, hj⟩ := ((Verif.parFor_complete _ sched _ (by rw [hcl]; exact hp)).2).1 hpar
    have hik : i < k + 1 := by rw [← hcl]; exact (List.getElem?_eq_some_iff.1 hc).1
    rw [chunks_eq _ hpos _ _ hs] at hc
    simp only [List.getElem?_map, List.getElem?_range hik, Option.map_some, Option.some.injEq] at hc
    have hlen : c.length = (s.length + 1) * (l * ((k + 1) * N)) := by
      rw [← hc]
      apply block_length
      rw [hs]; exact Nat.mul_le_mul_right _ hik
    obtain ⟨P, p1, p2, -⟩ := Pks.cbsPolynomials_get hN hk i (by omega)
    have e2 : ((List.range (k + 1)).map (g.slice ((s.length + 1) * (l * (k * N * (w / 8)))) ((s.length + 1) * (l * (N * 256)))))[i]?
        = some (g.slice ((s.length + 1) * (l * (k * N * (w / 8)))) ((s.length + 1) * (l * (N * 256))) i) := by simp [hik]
    simp only [Pks.cbsJob, p1, e2, Option.map_eq_none_iff] at hj
    obtain ⟨t, ht, hr⟩ := Pks.C19_private_key_only_noise_fails f N k b l hN hl s key P c _ p2 _ hk hlen (inner i) (hi i hik) hwb
      (by simp only [EncGen.slice]; rw [Nat.add_mul i 1, Nat.one_mul]; omega)
      (by simp only [EncGen.slice]; rw [Nat.add_mul i 1, Nat.one_mul]; omega) hj
    refine ⟨i * (s.length + 1) + t, ?_, ?_⟩
    · calc i * (s.length + 1) + t < i * (s.length + 1) + (s.length + 1) := by omega
        _ = (i + 1) * (s.length + 1) := by rw [Nat.add_mul, Nat.one_mul]
        _ ≤ _ := Nat.mul_le_mul_right _ hik
    · rw [← EncGen.slice_slice]
      exact hr
  · cases h

/-- C112. The generation of the `k + 1` keys of the circuit bootstrap, in parallel and in both builds: at most the fraction
`(k + 1) (n + 1) / 2^24lN` of the strings of bytes for the noise make the call panic. -/
theorem C112_cbs_keys (bld : Csprng.Build) (ln : F64 → F64) (d : Dispersion) (N k b l : ℕ) (hw : 8 ≤ w) (hN : 0 < N)
    (hk : 0 < k) (hl : 0 < l) (s key ksks : List (BitVec w)) (hkey : KeyFits N k key) (mask : Src)
    (hs : ksks.length = (k + 1) * ((s.length + 1) * (l * ((k + 1) * N)))) (sched : List ℕ)
    (hp : sched.Perm (List.range (k + 1))) (inner : ℕ → List ℕ)
    (hi : ∀ i, i < k + 1 → (inner i).Perm (List.range (s.length + 1)))
    (hm : mask.pos + (k + 1) * ((s.length + 1) * (l * (k * N * (w / 8)))) ≤ mask.bound) :
    (Finset.univ.filter fun bs : Fin ((k + 1) * (s.length + 1) * (l * (N * 256))) → BitVec 8 =>
      (Pks.parFillCbsKeys bld (noiseFn w ln d) s key b l N k (k + 1) sched inner ksks
        ⟨mask, srcOf (List.ofFn bs)⟩).isNone = true).card * 2 ^ (24 * (l * N)) ≤
      (k + 1) * (s.length + 1) * 256 ^ ((k + 1) * (s.length + 1) * (l * (N * 256))) := by
  refine union_bound' ((k + 1) * (s.length + 1)) (l * (N * 256)) (24 * (l * N)) (lrep l (ltensor (noiseFn w ln d) N))
    (fun bs => (Pks.parFillCbsKeys bld (noiseFn w ln d) s key b l N k (k + 1) sched inner ksks ⟨mask, srcOf bs⟩).isNone) ?_
    (lfails_polys (noiseFn w ln d) rfl N l hN hl)
  intro bs hlen hnone
  obtain ⟨i, hi', h⟩ := cbs_none bld (noiseFn w ln d) N k b l hw hN hk hl s key ksks hkey ⟨mask, srcOf bs⟩ hs sched hp inner hi hm
    (by simp only [srcOf]; rw [hlen, Nat.mul_assoc]; omega) (Option.isNone_iff_eq_none.1 hnone)
  refine ⟨i, hi', ?_⟩
  rw [← ((sim_tensor (noiseFn w ln d) N).rep l).isNone (has_slice ⟨mask, srcOf bs⟩ bs rfl (l * (k * N * (w / 8)))
    (l * (N * 256)) i (by rw [hlen]; exact Nat.mul_le_mul_right _ hi'))]
  exact Option.isNone_iff_eq_none.2 h

example : KeyFits 2 1 [1#32, 0#32] ∧
    (List.replicate 48 0#32).length = (1 + 1) * (([1#32, 0#32].length + 1) * (2 * ((1 + 1) * 2))) ∧
    [1, 0].Perm (List.range (1 + 1)) ∧ (∀ i : ℕ, i < 1 + 1 → [2, 0, 1].Perm (List.range ([1#32, 0#32].length + 1))) ∧
    (⟨fun _ => 0, 0, 96⟩ : Src).pos + (1 + 1) * (([1#32, 0#32].length + 1) * (2 * (1 * 2 * (32 / 8)))) ≤
      (⟨fun _ => 0, 0, 96⟩ : Src).bound :=
  ⟨rfl, rfl, by decide, fun _ _ => by decide, by decide⟩

/-! ### GGSW ciphertexts -/

theorem ggsw_bound (f : GaussianFn w) (hf : f.accept = accept)
    (enc : List (BitVec w) → EncGen → List (BitVec w) → Option (List (BitVec w))) (rowSize : ℕ) (hr : 0 < rowSize)
    (key : List (BitVec w)) (N k b level : ℕ) (hw : 8 ≤ w) (hN : 0 < N) (hk : 0 < k) (hl : 0 < level)
    (henc : KeepsSize enc key N k rowSize) (hok : RowOk f enc N k rowSize) (msg : BitVec w) (mask : Src) (sched : List ℕ)
    (rowSched : ℕ → List ℕ) (hp : sched.Perm (List.range level)) (hs : ∀ j, (rowSched j).Perm (List.range (k + 1)))
    (out : List (BitVec w)) (ho : out.length = level * ((k + 1) * rowSize))
    (hm : mask.pos + level * ((k + 1) * (k * (N * (w / 8)))) ≤ mask.bound) :
    (Finset.univ.filter fun bs : Fin (level * (k + 1) * (N * 256)) → BitVec 8 =>
      (ggswFill enc rowSize key N k b sched rowSched out msg ⟨mask, srcOf (List.ofFn bs)⟩).isNone = true).card *
        2 ^ (26 * N) ≤ level * (k + 1) * 256 ^ (level * (k + 1) * (N * 256)) := by
  refine union_bound' (level * (k + 1)) (N * 256) (26 * N) (ltensor f N) (fun bs =>
    (ggswFill enc rowSize key N k b sched rowSched out msg ⟨mask, srcOf bs⟩).isNone) ?_ (lfails_poly f hf N hN)
  intro bs hlen hnone
  by_contra hcon
  obtain ⟨res, g', h, -⟩ := ggsw_some f enc rowSize hr key N k b level hN henc hok msg ⟨mask, srcOf bs⟩ sched rowSched hp
    (fun j _ => hs j) out ho ⟨hl, Nat.mul_pos hk (Nat.mul_pos hN (Nat.div_pos hw (by norm_num))), hm, by
      simp only [srcOf, nB]; rw [hlen, Nat.mul_assoc]; exact le_of_eq (Nat.zero_add _)⟩ (by
      intro t ht hn
      refine hcon ⟨t, ht, ?_⟩
      rw [← (sim_tensor f N).isNone (has_slice ⟨mask, srcOf bs⟩ bs rfl (mB w k N) (N * 256) t
        (by rw [hlen]; exact Nat.mul_le_mul_right _ ht))]
      exact hn)
  have h2 : (ggswFill enc rowSize key N k b sched rowSched out msg ⟨mask, srcOf bs⟩).isNone = true := hnone
  rw [h] at h2
  cases h2

/-- C112. The encryption of a constant in a GGSW ciphertext, in parallel and on one thread: at most the fraction
`l (k + 1) / 2^26N` of the strings of bytes for the noise make the call panic. -/
theorem C112_ggsw (ln : F64 → F64) (d : Dispersion) (key out : List (BitVec w)) (N k b level : ℕ) (hw : 8 ≤ w) (hN : 0 < N)
    (hk : 0 < k) (hl : 0 < level) (hkey : key.length = k * N) (msg : BitVec w) (mask : Src) (sched : List ℕ)
    (rowSched : ℕ → List ℕ) (hp : sched.Perm (List.range level)) (hs : ∀ j, (rowSched j).Perm (List.range (k + 1)))
    (ho : out.length = level * ((k + 1) * ((k + 1) * N)))
    (hm : mask.pos + level * ((k + 1) * (k * (N * (w / 8)))) ≤ mask.bound) :
    (Finset.univ.filter fun bs : Fin (level * (k + 1) * (N * 256)) → BitVec 8 =>
      (parEncryptGgsw (noiseFn w ln d) key N k b sched rowSched out msg ⟨mask, srcOf (List.ofFn bs)⟩).isNone = true).card *
        2 ^ (26 * N) ≤ level * (k + 1) * 256 ^ (level * (k + 1) * (N * 256)) ∧
    (Finset.univ.filter fun bs : Fin (level * (k + 1) * (N * 256)) → BitVec 8 =>
      (encryptGgsw (noiseFn w ln d) key N k b out msg ⟨mask, srcOf (List.ofFn bs)⟩).isNone = true).card *
        2 ^ (26 * N) ≤ level * (k + 1) * 256 ^ (level * (k + 1) * (N * 256)) := by
  have hr : 0 < (k + 1) * N := Nat.mul_pos (by omega) hN
  have hkeep := keeps_rowEnc (noiseFn w ln d) key N k hN hkey
  refine ⟨ggsw_bound (noiseFn w ln d) rfl _ _ hr key N k b level hw hN hk hl hkeep (rowEnc_ok _ _ _ _) msg mask sched rowSched
    hp hs out ho hm, ?_⟩
  have h := ggsw_bound (noiseFn w ln d) rfl _ _ hr key N k b level hw hN hk hl hkeep (rowEnc_ok _ _ _ _) msg mask
    (List.range level) (fun _ => List.range (k + 1)) (List.Perm.refl _) (fun _ => List.Perm.refl _) out ho hm
  simp only [encryptGgsw, ho, Nat.mul_div_cancel level (Nat.mul_pos (show 0 < k + 1 by omega) hr)]
  exact h

/-- C112. The same for seeded GGSW ciphertexts. -/
theorem C112_seeded_ggsw (ln : F64 → F64) (d : Dispersion) (key out : List (BitVec w)) (N k b level : ℕ) (hw : 8 ≤ w)
    (hN : 0 < N) (hk : 0 < k) (hl : 0 < level) (hkey : key.length = k * N) (msg : BitVec w) (mask : Src) (sched : List ℕ)
    (rowSched : ℕ → List ℕ) (hp : sched.Perm (List.range level)) (hs : ∀ j, (rowSched j).Perm (List.range (k + 1)))
    (ho : out.length = level * ((k + 1) * N))
    (hm : mask.pos + level * ((k + 1) * (k * (N * (w / 8)))) ≤ mask.bound) :
    (Finset.univ.filter fun bs : Fin (level * (k + 1) * (N * 256)) → BitVec 8 =>
      (parEncryptSeededGgsw (noiseFn w ln d) key N k b sched rowSched out msg ⟨mask, srcOf (List.ofFn bs)⟩).isNone = true).card *
        2 ^ (26 * N) ≤ level * (k + 1) * 256 ^ (level * (k + 1) * (N * 256)) ∧
    (Finset.univ.filter fun bs : Fin (level * (k + 1) * (N * 256)) → BitVec 8 =>
      (encryptSeededGgsw (noiseFn w ln d) key N k b out msg ⟨mask, srcOf (List.ofFn bs)⟩).isNone = true).card *
        2 ^ (26 * N) ≤ level * (k + 1) * 256 ^ (level * (k + 1) * (N * 256)) := by
  have hkeep := keeps_rowEncSeeded (noiseFn w ln d) key N k hN hkey
  refine ⟨ggsw_bound (noiseFn w ln d) rfl _ _ hN key N k b level hw hN hk hl hkeep (rowEncSeeded_ok _ _ _ _ hkey) msg mask sched
    rowSched hp hs out ho hm, ?_⟩
  have h := ggsw_bound (noiseFn w ln d) rfl _ _ hN key N k b level hw hN hk hl hkeep (rowEncSeeded_ok _ _ _ _ hkey) msg mask
    (List.range level) (fun _ => List.range (k + 1)) (List.Perm.refl _) (fun _ => List.Perm.refl _) out ho hm
  simp only [encryptSeededGgsw, ho, Nat.mul_div_cancel level (Nat.mul_pos (show 0 < k + 1 by omega) hN)]
  exact h

example : [1#32, 0#32].length = 1 * 2 ∧ [1, 0].Perm (List.range 2) ∧ (∀ _ : ℕ, [1, 0].Perm (List.range (1 + 1))) ∧
    (List.replicate 16 0#32).length = 2 * ((1 + 1) * ((1 + 1) * 2)) ∧ (List.replicate 8 0#32).length = 2 * ((1 + 1) * 2) ∧
    (⟨fun _ => 0, 0, 32⟩ : Src).pos + 2 * ((1 + 1) * (1 * (2 * (32 / 8)))) ≤ (⟨fun _ => 0, 0, 32⟩ : Src).bound :=
  ⟨rfl, by decide, fun _ => by decide, rfl, rfl, by decide⟩

end Verif.Random
