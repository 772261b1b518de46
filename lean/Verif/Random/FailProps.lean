import Verif.Random.FailCalls
/-
C112. How often a call panics because one of its generators has no more bytes for the noise.

The encryption of a list in parallel, the GGSW encryptions and the generations of bootstrap keys give each of their parts a
generator with a limited number of bytes. The gaussian sampler refuses some pairs of words, so that no number of bytes is
always enough.
-/
namespace Verif.Random
open Verif.Float Verif.Glwe Verif.Random.Gauss

variable {w : ℕ}

theorem pairsWith_pos {v : ℕ} (f : BitVec v → BitVec v → Bool) (x y : BitVec v) (b : Bool) (h : f x y = b) :
    0 < pairsWith f b := by
  rw [pairsWith, Finset.card_pos]
  exact ⟨(x, y), Finset.mem_filter.2 ⟨Finset.mem_univ _, h⟩⟩

/-- C112. The gaussian sampler refuses some pairs of words, but at most a quarter of them. -/
theorem C112_refused : 0 < refused ∧ refused ≤ 2 ^ 126 :=
  ⟨by rw [refused]; exact pairsWith_pos _ (BitVec.intMin 64) 0 false (accept_min_left 0), refused_le⟩

/-- C112. The draw of one noise from `16 K + r` bytes: it panics for exactly the strings whose `K` pairs are all refused,
whatever the standard deviation. -/
theorem C112_noise (ln : F64 → F64) (d : Dispersion) (K r : ℕ) (hr : r < 16) :
    fails (randomNoise (noiseFn w ln d)) (16 * K + r) = refused ^ K * 256 ^ r := by
  rw [(sim_noise _).fails, lfails_noise, refused]
  exact (rec_gauss (noiseFn w ln d)).one r hr K

example : (0 : ℕ) < 16 := by norm_num

theorem lwe_aux (ln : F64 → F64) (d : Dispersion) (L K e : ℕ) (hL : L = 16 * K) (he : e = 2 * K) :
    0 < fails (randomNoise (noiseFn w ln d)) L ∧ fails (randomNoise (noiseFn w ln d)) L * 2 ^ e ≤ 256 ^ L := by
  have h := lfails_lwe (noiseFn w ln d) rfl L K e hL he
  rw [(sim_noise _).fails]
  refine ⟨?_, h.2⟩
  rw [h.1]
  exact Nat.pow_pos C112_refused.1

/-- C112. A generator for one LWE ciphertext (768 bytes of noise) can lack bytes, but with uniform bytes the probability is
at most `2^-96`. -/
theorem C112_lwe (ln : F64 → F64) (d : Dispersion) :
    0 < fails (randomNoise (noiseFn w ln d)) noiseBytesPerLwe ∧
    fails (randomNoise (noiseFn w ln d)) noiseBytesPerLwe * 2 ^ 96 ≤ 256 ^ noiseBytesPerLwe :=
  lwe_aux ln d noiseBytesPerLwe 48 96 (by rfl) (by rfl)

/-- C112. A generator for one polynomial of size `N` (`256 N` bytes of noise): the probability is at most `2^-26N`. -/
theorem C112_polynomial (ln : F64 → F64) (d : Dispersion) (N : ℕ) (hN : 0 < N) :
    fails (randomNoiseTensor (noiseFn w ln d) N) (noiseBytesPerPolynomial N) * 2 ^ (26 * N) ≤
      256 ^ noiseBytesPerPolynomial N := by
  have h := lfails_poly (noiseFn w ln d) rfl N hN
  rw [← (sim_tensor _ _).fails] at h
  exact h

example : 0 < 1024 := by norm_num

/-- C112. The encryption of a list of `n` LWE ciphertexts in parallel: when there are enough bytes for the masks, among the
strings of bytes for the noise at most the fraction `n / 2^96` make the call panic, whatever the order of the jobs. -/
theorem C112_lwe_list (ln : F64 → F64) (d : Dispersion) (key out msgs : List (BitVec w)) (mask : Src) (sched : List ℕ)
    (hk : 0 < key.length) (hw : 8 ≤ w) (hn : 0 < msgs.length) (ho : out.length = msgs.length * (key.length + 1))
    (hp : sched.Perm (List.range msgs.length)) (hm : mask.pos + msgs.length * (key.length * (w / 8)) ≤ mask.bound) :
    (Finset.univ.filter fun bs : Fin (msgs.length * 768) → BitVec 8 =>
      (Lwe.parEncryptLweList (noiseFn w ln d) key (key.length + 1) out msgs ⟨mask, srcOf (List.ofFn bs)⟩ sched).isNone = true).card
        * 2 ^ 96 ≤ msgs.length * 256 ^ (msgs.length * 768) := by
  refine union_bound' msgs.length 768 96 (lnoise (noiseFn w ln d)) (fun bs =>
    (Lwe.parEncryptLweList (noiseFn w ln d) key (key.length + 1) out msgs ⟨mask, srcOf bs⟩ sched).isNone) ?_
    (lfails_lwe (noiseFn w ln d) rfl 768 48 96 (by norm_num) (by norm_num)).2
  intro bs hl hnone
  obtain ⟨i, hi, h⟩ := parEncrypt_none _ key out msgs ⟨mask, srcOf bs⟩ sched hk hw hn ho hp hm
    (by simp only [srcOf]; rw [hl]; omega) (Option.isNone_iff_eq_none.1 hnone)
  refine ⟨i, hi, ?_⟩
  rw [← (sim_noise _).isNone (has_slice ⟨mask, srcOf bs⟩ bs rfl (key.length * (w / 8)) 768 i
    (by rw [hl]; exact Nat.mul_le_mul_right _ hi))]
  exact h

example : 0 < [1#32, 0#32].length ∧ 8 ≤ 32 ∧ 0 < [5#32, 6#32].length ∧
    (List.replicate 6 0#32).length = [5#32, 6#32].length * ([1#32, 0#32].length + 1) ∧
    [1, 0].Perm (List.range [5#32, 6#32].length) ∧
    (⟨fun _ => 0, 0, 16⟩ : Src).pos + [5#32, 6#32].length * ([1#32, 0#32].length * (32 / 8)) ≤
      (⟨fun _ => 0, 0, 16⟩ : Src).bound := by decide

/-- What the generation of a bootstrap key is given: a GLWE key, a container of the right size, orders in which the
workers run, and enough bytes for the masks. `rowSize` is the size of a row. -/
structure BskInput (w : ℕ) (lweKey key : List (BitVec w)) (N k level rowSize : ℕ) (out : List (BitVec w)) (mask : Src)
    (sched : List ℕ) (levelSched : ℕ → List ℕ) (rowSched : ℕ → ℕ → List ℕ) : Prop where
  words : 8 ≤ w
  poly : 0 < N
  dim : 0 < k
  levels : 0 < level
  input : 0 < lweKey.length
  key : key.length = k * N
  out : out.length = lweKey.length * (level * ((k + 1) * rowSize))
  sched : sched.Perm (List.range lweKey.length)
  levelSched : ∀ i, (levelSched i).Perm (List.range level)
  rowSched : ∀ i j, (rowSched i j).Perm (List.range (k + 1))
  mask : mask.pos + lweKey.length * (level * ((k + 1) * (k * (N * (w / 8))))) ≤ mask.bound

theorem bsk_bound (f : GaussianFn w) (hf : f.accept = accept)
    (enc : List (BitVec w) → EncGen → List (BitVec w) → Option (List (BitVec w)))
    (rowSize : ℕ) (hr : 0 < rowSize) {lweKey key : List (BitVec w)} {N k level : ℕ} (b : ℕ) {out : List (BitVec w)} {mask : Src}
    {sched : List ℕ} {levelSched : ℕ → List ℕ} {rowSched : ℕ → ℕ → List ℕ}
    (hi : BskInput w lweKey key N k level rowSize out mask sched levelSched rowSched)
    (henc : KeepsSize enc key N k rowSize) (hok : RowOk f enc N k rowSize)
    (fill : Nat → List (BitVec w) → BitVec w → EncGen → Option (List (BitVec w) × EncGen))
    (hfill : ∀ i c s g, c.length = level * ((k + 1) * rowSize) →
      fill i c s g = ggswFill enc rowSize key N k b (levelSched i) (rowSched i) c s g) :
    (Finset.univ.filter fun bs : Fin (lweKey.length * (level * (k + 1)) * (N * 256)) → BitVec 8 =>
      (bskFill fill (level * ((k + 1) * rowSize)) lweKey N k level sched out ⟨mask, srcOf (List.ofFn bs)⟩).isNone = true).card *
        2 ^ (26 * N) ≤ lweKey.length * (level * (k + 1)) * 256 ^ (lweKey.length * (level * (k + 1)) * (N * 256)) := by
  refine union_bound' (lweKey.length * (level * (k + 1))) (N * 256) (26 * N) (ltensor f N) (fun bs =>
    (bskFill fill (level * ((k + 1) * rowSize)) lweKey N k level sched out ⟨mask, srcOf bs⟩).isNone) ?_
    (lfails_poly f hf N hi.poly)
  intro bs hl hnone
  by_contra hcon
  refine bsk_some f enc rowSize hr lweKey key N k b level hi.poly henc hok sched levelSched rowSched hi.sched hi.levelSched
    hi.rowSched out hi.out ⟨mask, srcOf bs⟩
    (Nat.mul_pos hi.dim (Nat.mul_pos hi.poly (Nat.div_pos hi.words (by norm_num)))) hi.levels hi.input hi.mask ?_ fill hfill ?_
    (Option.isNone_iff_eq_none.1 hnone)
  · simp only [srcOf]
    rw [hl, Nat.zero_add]
    exact le_of_eq (by rw [Nat.mul_assoc, Nat.mul_assoc])
  · intro t ht hnone'
    refine hcon ⟨t, ht, ?_⟩
    rw [← (sim_tensor f N).isNone (has_slice ⟨mask, srcOf bs⟩ bs rfl (mB w k N) (N * 256) t
      (by rw [hl]; exact Nat.mul_le_mul_right _ ht))]
    exact hnone'

/-- C112. The generation of a bootstrap key, in parallel and on one thread: with `t` the number of its rows, at most the
fraction `t / 2^26N` of the strings of bytes for the noise make the call panic. -/
theorem C112_bootstrap_key (ln : F64 → F64) (d : Dispersion) (lweKey key : List (BitVec w)) (N k b level : ℕ)
    (out : List (BitVec w)) (mask : Src) (sched : List ℕ) (levelSched : ℕ → List ℕ) (rowSched : ℕ → ℕ → List ℕ)
    (hi : BskInput w lweKey key N k level ((k + 1) * N) out mask sched levelSched rowSched) :
    (Finset.univ.filter fun bs : Fin (lweKey.length * (level * (k + 1)) * (N * 256)) → BitVec 8 =>
      (parFillBsk (noiseFn w ln d) lweKey key N k b level sched levelSched rowSched out
        ⟨mask, srcOf (List.ofFn bs)⟩).isNone = true).card * 2 ^ (26 * N) ≤
      lweKey.length * (level * (k + 1)) * 256 ^ (lweKey.length * (level * (k + 1)) * (N * 256)) ∧
    (Finset.univ.filter fun bs : Fin (lweKey.length * (level * (k + 1)) * (N * 256)) → BitVec 8 =>
      (fillBsk (noiseFn w ln d) lweKey key N k b level out ⟨mask, srcOf (List.ofFn bs)⟩).isNone = true).card * 2 ^ (26 * N) ≤
      lweKey.length * (level * (k + 1)) * 256 ^ (lweKey.length * (level * (k + 1)) * (N * 256)) := by
  have hr : 0 < (k + 1) * N := Nat.mul_pos (by omega) hi.poly
  constructor
  · exact bsk_bound (noiseFn w ln d) rfl (rowEnc (noiseFn w ln d) key N) _ hr b hi (keeps_rowEnc _ _ _ _ hi.poly hi.key)
      (rowEnc_ok _ _ _ _) _ fun i c s g _ => rfl
  · refine bsk_bound (noiseFn w ln d) rfl (rowEnc (noiseFn w ln d) key N) _ hr b (levelSched := fun _ => List.range level)
      (rowSched := fun _ _ => List.range (k + 1))
      { hi with sched := List.Perm.refl _, levelSched := fun _ => List.Perm.refl _, rowSched := fun _ _ => List.Perm.refl _ }
      (keeps_rowEnc _ _ _ _ hi.poly hi.key) (rowEnc_ok _ _ _ _) _ fun i c s g hc => ?_
    rw [encryptGgsw, hc, Nat.mul_div_cancel _ (Nat.mul_pos (by omega) hr)]

/-- C112. The same for seeded bootstrap keys. -/
theorem C112_seeded_bootstrap_key (ln : F64 → F64) (d : Dispersion) (lweKey key : List (BitVec w)) (N k b level : ℕ)
    (out : List (BitVec w)) (mask : Src) (sched : List ℕ) (levelSched : ℕ → List ℕ) (rowSched : ℕ → ℕ → List ℕ)
    (hi : BskInput w lweKey key N k level N out mask sched levelSched rowSched) :
    (Finset.univ.filter fun bs : Fin (lweKey.length * (level * (k + 1)) * (N * 256)) → BitVec 8 =>
      (parFillSeededBsk (noiseFn w ln d) lweKey key N k b level sched levelSched rowSched out
        ⟨mask, srcOf (List.ofFn bs)⟩).isNone = true).card * 2 ^ (26 * N) ≤
      lweKey.length * (level * (k + 1)) * 256 ^ (lweKey.length * (level * (k + 1)) * (N * 256)) ∧
    (Finset.univ.filter fun bs : Fin (lweKey.length * (level * (k + 1)) * (N * 256)) → BitVec 8 =>
      (fillSeededBsk (noiseFn w ln d) lweKey key N k b level out ⟨mask, srcOf (List.ofFn bs)⟩).isNone = true).card *
        2 ^ (26 * N) ≤
      lweKey.length * (level * (k + 1)) * 256 ^ (lweKey.length * (level * (k + 1)) * (N * 256)) := by
  constructor
  · exact bsk_bound (noiseFn w ln d) rfl (rowEncSeeded (noiseFn w ln d) key N) _ hi.poly b hi
      (keeps_rowEncSeeded _ _ _ _ hi.poly hi.key) (rowEncSeeded_ok _ _ _ _ hi.key) _ fun i c s g _ => rfl
  · refine bsk_bound (noiseFn w ln d) rfl (rowEncSeeded (noiseFn w ln d) key N) _ hi.poly b
      (levelSched := fun _ => List.range level) (rowSched := fun _ _ => List.range (k + 1))
      { hi with sched := List.Perm.refl _, levelSched := fun _ => List.Perm.refl _, rowSched := fun _ _ => List.Perm.refl _ }
      (keeps_rowEncSeeded _ _ _ _ hi.poly hi.key) (rowEncSeeded_ok _ _ _ _ hi.key) _ fun i c s g hc => ?_
    rw [encryptSeededGgsw, hc, Nat.mul_div_cancel _ (Nat.mul_pos (by omega) hi.poly)]

example : BskInput 32 [1#32, 0#32] [1#32, 0#32, 1#32, 1#32] 4 1 2 8 (List.replicate 64 0#32) ⟨fun _ => 0, 0, 128⟩ [1, 0]
    (fun _ => [1, 0]) (fun _ _ => [0, 1]) where
  words := by norm_num
  poly := by norm_num
  dim := by norm_num
  levels := by norm_num
  input := by decide
  key := rfl
  out := by rw [List.length_replicate]; rfl
  sched := by decide
  levelSched _ := by decide
  rowSched _ _ := by decide
  mask := by decide

end Verif.Random
