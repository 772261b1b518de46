import Verif.Random.FailLemmas
import Verif.Lwe.Props3
import Verif.Glwe.Ggsw2
/-
The parallel encryptions and the generation of bootstrap keys panic only when one of their generators lacks noise bytes.
-/
namespace Verif.Random
open Verif.Float Verif.Glwe

variable {w : ℕ}

/-! ### Bounds for one generator -/

theorem lfails_lwe (f : GaussianFn w) (hf : f.accept = Gauss.accept) (L K e : ℕ) (hL : L = 16 * K) (he : e = 2 * K) :
    lfails (lnoise f) L = refused ^ K ∧ lfails (lnoise f) L * 2 ^ e ≤ 256 ^ L := by
  have h := (rec_gauss f).one 0 (by norm_num) K
  rw [hf, pow_zero, Nat.mul_one, Nat.add_zero, ← hL, ← lfails_noise] at h
  rw [h, ← refused]
  refine ⟨rfl, ?_⟩
  have hr := Gauss.refused_le
  generalize refused = r at *
  rw [hL, he]
  calc r ^ K * 2 ^ (2 * K) ≤ (2 ^ 126) ^ K * 2 ^ (2 * K) := Nat.mul_le_mul_right _ (Nat.pow_le_pow_left hr K)
    _ = 256 ^ (16 * K) := by
      rw [show (256 : ℕ) = 2 ^ 8 by norm_num, ← pow_mul, ← pow_mul, ← pow_add]
      congr 1
      ring

theorem lfails_poly (f : GaussianFn w) (hf : f.accept = Gauss.accept) (N : ℕ) (hN : 0 < N) :
    lfails (ltensor f N) (N * 256) * 2 ^ (26 * N) ≤ 256 ^ (N * 256) := by
  obtain ⟨m, hm⟩ : ∃ m, (N + 1) / 2 = m + 1 := ⟨(N + 1) / 2 - 1, by omega⟩
  have hm2 : 4 * m ≤ 2 * N := by omega
  have hr := Gauss.refused_le
  have ha := Gauss.accepted_add
  rw [refused] at hr ha
  have hrec := rec_gauss f
  rw [hf] at hrec
  have h := hrec.many ha hr 0 (by norm_num) (16 * N) m
  rw [pow_zero, Nat.mul_one] at h
  rw [lfails_tensor, hm, show N * 256 = 16 * (16 * N) + 0 by ring]
  generalize lfails (lrep (m + 1) (lgauss f)) (16 * (16 * N) + 0) = F at h ⊢
  clear hrec ha hr hf hm
  have h19 : (19 : ℕ) ^ (16 * N) * 2 ^ (28 * N) ≤ 2 ^ (96 * N) := by
    rw [pow_mul, pow_mul, pow_mul, ← Nat.mul_pow]
    exact Nat.pow_le_pow_left (by norm_num) N
  have e64 : (64 : ℕ) ^ (16 * N) = 2 ^ (96 * N) := by
    rw [show (64 : ℕ) = 2 ^ 6 by norm_num, ← pow_mul]; congr 1; ring
  have e256 : (256 : ℕ) ^ (16 * (16 * N) + 0) = (2 ^ 128) ^ (16 * N) := by
    rw [show (256 : ℕ) = 2 ^ 8 by norm_num, ← pow_mul, ← pow_mul]; congr 1; ring
  have e16 : (16 : ℕ) ^ m * 2 ^ (26 * N) ≤ 2 ^ (28 * N) := by
    rw [show (16 : ℕ) = 2 ^ 4 by norm_num, ← pow_mul, ← pow_add]
    exact Nat.pow_le_pow_right (by norm_num) (by omega)
  rw [e64] at h
  rw [e256]
  generalize ((2 : ℕ) ^ 128) ^ (16 * N) = T at h ⊢
  refine Nat.le_of_mul_le_mul_right (c := 2 ^ (96 * N)) ?_ (Nat.pow_pos (by norm_num))
  calc F * 2 ^ (26 * N) * 2 ^ (96 * N) = F * 2 ^ (96 * N) * 2 ^ (26 * N) := by ring
    _ ≤ 16 ^ m * 19 ^ (16 * N) * T * 2 ^ (26 * N) := Nat.mul_le_mul_right _ h
    _ = 16 ^ m * 2 ^ (26 * N) * 19 ^ (16 * N) * T := by ring
    _ ≤ 2 ^ (28 * N) * 19 ^ (16 * N) * T := Nat.mul_le_mul_right _ (Nat.mul_le_mul_right _ e16)
    _ = T * (19 ^ (16 * N) * 2 ^ (28 * N)) := by ring
    _ ≤ T * 2 ^ (96 * N) := Nat.mul_le_mul_left _ h19

/-! ### The calls -/

theorem encryptLwe_none (f : GaussianFn w) (key c : List (BitVec w)) (m : BitVec w) (g : EncGen)
    (hc : c.length = key.length + 1) (hm : g.mask.pos + key.length * (w / 8) ≤ g.mask.bound)
    (h : Lwe.encryptLwe f key c m g = none) : (randomNoise f g.noise).isNone = true := by
  unfold Lwe.encryptLwe at h
  rw [if_neg (by omega), Lwe.fillMaskAndBody, rep_uniform _ _ _ (by omega), if_pos (by rw [hc]; exact hm)] at h
  cases hr : randomNoise f g.noise with
  | none => rfl
  | some q => rw [hr] at h; simp at h

theorem parEncrypt_none (f : GaussianFn w) (key out msgs : List (BitVec w)) (g : EncGen) (sched : List Nat)
    (hk : 0 < key.length) (hw : 8 ≤ w) (hn : 0 < msgs.length) (ho : out.length = msgs.length * (key.length + 1))
    (hp : sched.Perm (List.range msgs.length)) (hm : g.mask.pos + msgs.length * (key.length * (w / 8)) ≤ g.mask.bound)
    (hno : g.noise.pos + msgs.length * 768 ≤ g.noise.bound)
    (h : Lwe.parEncryptLweList f key (key.length + 1) out msgs g sched = none) :
    ∃ i < msgs.length, (randomNoise f (g.slice (key.length * (w / 8)) 768 i).noise).isNone = true := by
  have hpos : 0 < key.length + 1 := by omega
  have hcl := chunks_length _ hpos _ _ ho
  have hfork : g.forkLweListToLwe w (chunks (key.length + 1) out).length (key.length + 1) =
      g.tryFork msgs.length (key.length * (w / 8)) 768 := by rw [hcl]; rfl
  rw [Lwe.parEncryptLweList, hfork,
    encFork_eq g _ _ _ ⟨hn, Nat.mul_pos hk (Nat.div_pos hw (by norm_num)), by norm_num, hm, hno⟩] at h
  simp only at h
  split at h
  · rename_i hpar
    obtain ⟨i, c, hc, hj⟩ := ((Verif.parFor_complete _ sched _ (by rw [hcl]; exact hp)).2).1 hpar
    have hi : i < msgs.length := by rw [← hcl]; exact (List.getElem?_eq_some_iff.1 hc).1
    rw [chunks_eq _ hpos _ _ ho] at hc
    simp only [List.getElem?_map, List.getElem?_range hi, Option.map_some, Option.some.injEq] at hc
    have hlen : c.length = key.length + 1 := by
      rw [← hc]
      apply block_length
      rw [ho]; exact Nat.mul_le_mul_right _ hi
    refine ⟨i, hi, ?_⟩
    have e1 : msgs[i]? = some (msgs.getD i 0) := by
      simp [List.getD_eq_getElem?_getD, List.getElem?_eq_getElem hi]
    have e2 : ((List.range msgs.length).map (g.slice (key.length * (w / 8)) 768))[i]? =
        some (g.slice (key.length * (w / 8)) 768 i) := by simp [hi]
    simp only [Lwe.parEncryptJob, e1, e2, Option.map_eq_none_iff] at hj
    refine encryptLwe_none f key c _ _ hlen ?_ hj
    simp only [EncGen.slice]
    rw [Nat.add_mul i 1, Nat.one_mul]
    omega
  · cases h

theorem fill_some (f : GaussianFn w) (key : List (BitVec w)) (N n : ℕ) (msg : List (BitVec w)) (g : EncGen)
    (hm : g.mask.pos + n * (w / 8) ≤ g.mask.bound) (hno : (randomNoiseTensor f N g.noise).isNone ≠ true) :
    ∃ r, Glwe.fillMaskAndBody f key N n msg g = some r := by
  rw [Glwe.fillMaskAndBody, rep_uniform _ _ _ (by omega), if_pos hm]
  cases hr : randomNoiseTensor f N g.noise with
  | none => rw [hr] at hno; simp at hno
  | some q => exact ⟨_, rfl⟩

/-- What is needed of the encryption of a row: it succeeds when there is noise. -/
def RowOk (f : GaussianFn w) (enc : List (BitVec w) → EncGen → List (BitVec w) → Option (List (BitVec w)))
    (N k rowSize : ℕ) : Prop :=
  ∀ msg (g : EncGen) row, row.length = rowSize → g.mask.pos + mB w k N ≤ g.mask.bound →
    (randomNoiseTensor f N g.noise).isNone ≠ true → ∃ r, enc msg g row = some r

theorem rowEnc_ok (f : GaussianFn w) (key : List (BitVec w)) (N k : ℕ) : RowOk f (rowEnc f key N) N k ((k + 1) * N) := by
  intro msg g row hrow hm hno
  obtain ⟨r, hr⟩ := fill_some f key N (row.length - N) msg g (by
    rw [hrow, Nat.add_mul, Nat.one_mul, Nat.add_sub_cancel, Nat.mul_assoc]; exact hm) hno
  exact ⟨r.1 ++ r.2.1, by rw [rowEnc, encryptGlwe, hr]; rfl⟩

theorem rowEncSeeded_ok (f : GaussianFn w) (key : List (BitVec w)) (N k : ℕ) (hk : key.length = k * N) :
    RowOk f (rowEncSeeded f key N) N k N := by
  intro msg g row _ hm hno
  obtain ⟨r, hr⟩ := fill_some f key N key.length msg g (by rw [hk, Nat.mul_assoc]; exact hm) hno
  exact ⟨r.2.1, by rw [rowEncSeeded, encryptSeededGlwe, hr]; rfl⟩

theorem ggsw_some (f : GaussianFn w) (enc : List (BitVec w) → EncGen → List (BitVec w) → Option (List (BitVec w)))
    (rowSize : Nat) (hr : 0 < rowSize) (key : List (BitVec w)) (N k b level : Nat) (hN : 0 < N)
    (henc : KeepsSize enc key N k rowSize) (hok : RowOk f enc N k rowSize) (msg : BitVec w) (g : EncGen) (sched : List Nat)
    (rowSched : Nat → List Nat) (hp : sched.Perm (List.range level))
    (hs : ∀ j, j < level → (rowSched j).Perm (List.range (k + 1)))
    (out : List (BitVec w)) (ho : out.length = level * ((k + 1) * rowSize)) (hroom : GgswRoom w level k N g)
    (hno : ∀ t, t < level * (k + 1) → (randomNoiseTensor f N (g.slice (mB w k N) (nB N) t).noise).isNone ≠ true) :
    ∃ res g', ggswFill enc rowSize key N k b sched rowSched out msg g = some (res, g') ∧
      res.length = level * ((k + 1) * rowSize) := by
  obtain ⟨res, hl, hb⟩ := exists_blocks (level * (k + 1)) rowSize hr
    (fun t c => enc (rowPlaintext key N k (-msg * gadget w b (t / (k + 1) + 1)) (t % (k + 1)))
      (g.slice (mB w k N) (nB N) t) (block rowSize out t) = some c) (by
    intro t ht
    have hbl : (block rowSize out t).length = rowSize := by
      apply block_length
      rw [ho, ← Nat.mul_assoc]; exact Nat.mul_le_mul_right _ ht
    obtain ⟨c, hc⟩ := hok (rowPlaintext key N k (-msg * gadget w b (t / (k + 1) + 1)) (t % (k + 1)))
      (g.slice (mB w k N) (nB N) t) (block rowSize out t) hbl (by
        simp only [EncGen.slice]; rw [Nat.add_mul t 1, Nat.one_mul]; omega) (hno t ht)
    exact ⟨c, henc _ _ _ _ _ hbl hc, hc⟩)
  rw [Nat.mul_assoc] at hl
  refine ⟨res, _, (ggswFill_iff enc rowSize hr key N k b level hN henc msg g _ sched rowSched hp hs out res ho).2
    ⟨hroom, rfl, hl, fun j hj r hrr => ?_⟩, hl⟩
  have := hb (j * (k + 1) + r) (by
    calc j * (k + 1) + r < j * (k + 1) + (k + 1) := by omega
      _ = (j + 1) * (k + 1) := by rw [Nat.add_mul, Nat.one_mul]
      _ ≤ level * (k + 1) := Nat.mul_le_mul_right _ hj)
  rw [show (j * (k + 1) + r) / (k + 1) = j by
      rw [Nat.add_comm, Nat.add_mul_div_right _ _ (by omega), Nat.div_eq_of_lt hrr, Nat.zero_add],
    show (j * (k + 1) + r) % (k + 1) = r by rw [Nat.add_comm, Nat.add_mul_mod_self_right, Nat.mod_eq_of_lt hrr]] at this
  exact this

theorem bsk_some (f : GaussianFn w) (enc : List (BitVec w) → EncGen → List (BitVec w) → Option (List (BitVec w)))
    (rowSize : Nat) (hr : 0 < rowSize) (lweKey key : List (BitVec w)) (N k b level : Nat) (hN : 0 < N)
    (henc : KeepsSize enc key N k rowSize) (hok : RowOk f enc N k rowSize) (sched : List Nat)
    (levelSched : Nat → List Nat) (rowSched : Nat → Nat → List Nat) (hp : sched.Perm (List.range lweKey.length))
    (hls : ∀ i, (levelSched i).Perm (List.range level))
    (hs : ∀ i j, (rowSched i j).Perm (List.range (k + 1)))
    (out : List (BitVec w)) (ho : out.length = lweKey.length * (level * ((k + 1) * rowSize))) (g : EncGen)
    (hk : 0 < mB w k N) (hlev : 0 < level) (hn : 0 < lweKey.length)
    (hm : g.mask.pos + lweKey.length * (level * ((k + 1) * mB w k N)) ≤ g.mask.bound)
    (hnb : g.noise.pos + lweKey.length * (level * ((k + 1) * nB N)) ≤ g.noise.bound)
    (fill : Nat → List (BitVec w) → BitVec w → EncGen → Option (List (BitVec w) × EncGen))
    (hfill : ∀ i c s g, c.length = level * ((k + 1) * rowSize) →
      fill i c s g = ggswFill enc rowSize key N k b (levelSched i) (rowSched i) c s g)
    (hno : ∀ t, t < lweKey.length * (level * (k + 1)) →
      (randomNoiseTensor f N (g.slice (mB w k N) (nB N) t).noise).isNone ≠ true) :
    bskFill fill (level * ((k + 1) * rowSize)) lweKey N k level sched out g ≠ none := by
  have hsz : 0 < level * ((k + 1) * rowSize) := Nat.mul_pos hlev (Nat.mul_pos (by omega) hr)
  have hfl : ∀ i c s g1 c' g2, c.length = level * ((k + 1) * rowSize) → fill i c s g1 = some (c', g2) →
      c'.length = level * ((k + 1) * rowSize) := by
    intro i c s g1 c' g2 hc h
    rw [hfill i c s g1 hc] at h
    exact ((ggswFill_iff enc rowSize hr key N k b level hN henc s g1 g2 _ _ (hls i) (fun j _ => hs i j) c c' hc).1 h).2.2.1
  obtain ⟨res, hl, hb⟩ := exists_blocks lweKey.length (level * ((k + 1) * rowSize)) hsz
    (fun i c => ∃ gi, fill i (List.replicate (level * ((k + 1) * rowSize)) 0#w) (lweKey.getD i 0)
      (g.slice (level * ((k + 1) * mB w k N)) (level * ((k + 1) * nB N)) i) = some (c, gi)) (by
    intro i hi
    have hadd : ∀ x, (i + 1) * x = i * x + x := fun x => by rw [Nat.add_mul, Nat.one_mul]
    obtain ⟨c, gi, h1, h2⟩ := ggsw_some f enc rowSize hr key N k b level hN henc hok (lweKey.getD i 0)
      (g.slice (level * ((k + 1) * mB w k N)) (level * ((k + 1) * nB N)) i) (levelSched i) (rowSched i) (hls i)
      (fun j _ => hs i j) (List.replicate (level * ((k + 1) * rowSize)) 0#w) (by simp)
      ⟨hlev, hk, by simp only [EncGen.slice]; rw [hadd]; omega, by simp only [EncGen.slice]; rw [hadd]; omega⟩ (by
        intro t ht
        rw [← Nat.mul_assoc level (k + 1) (mB w k N), ← Nat.mul_assoc level (k + 1) (nB N), EncGen.slice_slice]
        apply hno
        calc i * (level * (k + 1)) + t < i * (level * (k + 1)) + level * (k + 1) := by omega
          _ = (i + 1) * (level * (k + 1)) := (hadd _).symm
          _ ≤ _ := Nat.mul_le_mul_right _ hi)
    refine ⟨c, h2, gi, ?_⟩
    rw [hfill i _ _ _ (by simp)]
    exact h1)
  have := (bskFill_iff fill _ hsz lweKey N k level sched hp out ho g _ res hfl).2
    ⟨⟨hn, Nat.mul_pos hlev (Nat.mul_pos (by omega) hk), Nat.mul_pos hlev (Nat.mul_pos (by omega) (Nat.mul_pos hN (by norm_num))),
      hm, hnb⟩, rfl, hl, hb⟩
  rw [this]
  simp

end Verif.Random
