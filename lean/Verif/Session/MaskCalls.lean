import Verif.Session.Masks
import Verif.Engine.ChecksProps
/-
Every successful call outputs whole ciphertexts, whose masks are the next words of the mask stream.
-/
namespace Verif.Session
open Verif.Random Verif.Engine
open Verif.Csprng (Build)
variable {w : Nat}

theorem KeyOk.len {k : GlweKey (BitVec w)} (h : KeyOk k) : k.data.length = k.dim * k.polySize :=
  (Nat.div_mul_cancel h.2).symm

theorem ite_ok {p : Prop} [Decidable p] {e : EErr} {r : Res EErr Unit} {u : Unit}
    (h : (if p then .err e else r) = Res.ok u) : ¬ p ∧ r = .ok u := by
  by_cases hp : p
  · rw [if_pos hp] at h; cases h
  · rw [if_neg hp] at h; exact ⟨hp, h⟩

theorem keyGeneration_level {bld : Build} {b l m : Nat} {u : Unit}
    (h : Checks.keyGeneration bld b l m = .ok u) : 0 < l := by
  simp only [Checks.keyGeneration, Checks.decomposition, checks_bad] at h
  obtain ⟨_, h⟩ := ite_ok h
  obtain ⟨h, _⟩ := ite_ok h
  simp only [beq_iff_eq] at h
  omega

theorem pfpksk_level {bld : Build} {l b m n p : Nat} {u : Unit}
    (h : Checks.lwePrivateFunctionalPackingKeyswitchKeyGeneration bld l b m n p = .ok u) : 0 < l := by
  simp only [Checks.lwePrivateFunctionalPackingKeyswitchKeyGeneration, Checks.decomposition, List.cons_append,
    checks_bad] at h
  obtain ⟨_, h⟩ := ite_ok h
  obtain ⟨h, _⟩ := ite_ok h
  simp only [beq_iff_eq] at h
  omega

/-- A call that passed its checks. -/
theorem maskE_call (bld : Build) (c : EncCall w) (hf : c.Fits) (hc : c.check bld = .ok ()) :
    0 < c.shape.2 ∧ ∃ count, MaskE c.shape.1 c.shape.2 count (c.exec bld) := by
  cases c with
  | lwe f key msg => exact ⟨Nat.succ_pos _, 1, maskE_encryptLwe _ _ _ _ (by simp)⟩
  | lweZero f key => exact ⟨Nat.succ_pos _, 1, maskE_encryptLwe _ _ _ _ (by simp)⟩
  | lweInto f key out msg =>
    simp only [EncCall.check, Checks.lweCiphertextDiscardingEncryption, checks_bad] at hc
    obtain ⟨h, _⟩ := ite_ok hc
    have h0 : 0 < out.length := List.length_pos_iff.2 hf
    simp only [bne_iff_ne, ne_eq, not_not] at h
    exact ⟨Nat.succ_pos _, 1, maskE_encryptLwe _ _ _ _ (by omega)⟩
  | lweVec f key msgs =>
    exact ⟨Nat.succ_pos _, msgs.length, maskE_encryptLweList _ _ _ _ (by simp [Nat.mul_comm])⟩
  | lweVecInto f key out msgs =>
    simp only [EncCall.check, Checks.lweCiphertextVectorDiscardingEncryption, checks_bad] at hc
    obtain ⟨h1, hc⟩ := ite_ok hc
    obtain ⟨h2, _⟩ := ite_ok hc
    simp only [bne_iff_ne, ne_eq, not_not, LweVec.dim, LweVec.count] at h1 h2
    have hs : out.lweSize = key.length + 1 := by have := hf.1; omega
    have hl : out.data.length = msgs.length * (key.length + 1) := by
      rw [h2, ← hs]; exact (Nat.div_mul_cancel hf.2).symm
    refine ⟨Nat.succ_pos _, msgs.length, ?_⟩
    show MaskE _ _ _ (Lwe.encryptLweList f key out.lweSize out.data msgs)
    rw [hs]
    exact maskE_encryptLweList _ _ _ _ hl
  | lweVecZero f key count => exact ⟨Nat.succ_pos _, count, maskE_zeroEncryptVec _ _ _⟩
  | publicKey f key count => exact ⟨Nat.succ_pos _, count, maskE_zeroEncryptVec _ _ _⟩
  | parLweVecZero f key count sched =>
    exact ⟨Nat.succ_pos _, _, maskE_parEncryptLweList f key (List.replicate ((key.length + 1) * count) 0)
      (List.replicate count 0) (by simp [Nat.mul_comm]) sched (by rw [List.length_replicate]; exact hf)⟩
  | parPublicKey f key count sched =>
    exact ⟨Nat.succ_pos _, _, maskE_parEncryptLweList f key (List.replicate ((key.length + 1) * count) 0)
      (List.replicate count 0) (by simp [Nat.mul_comm]) sched (by rw [List.length_replicate]; exact hf)⟩
  | glwe f key msg =>
    exact ⟨Nat.mul_pos (Nat.succ_pos _) hf.1, 1, maskE_encryptGlwe _ _ _ _ _ _ hf.1 hf.len (by simp [Nat.mul_comm])⟩
  | glweZero f key =>
    exact ⟨Nat.mul_pos (Nat.succ_pos _) hf.1, 1, maskE_encryptZeroGlwe _ _ _ _ _ hf.1 hf.len (by simp [Nat.mul_comm])⟩
  | glweInto f key out msg =>
    simp only [EncCall.check, Checks.glweCiphertextDiscardingEncryption, keyDims, checks_bad] at hc
    obtain ⟨hk, hp, hd, hne⟩ := hf
    have hpos : 0 < out.tensor.length := List.length_pos_iff.2 hne
    have hle := Nat.le_of_dvd hpos hd
    have hq := Nat.div_mul_cancel hd
    have hq1 : 0 < out.tensor.length / out.polySize := Nat.div_pos hle hp
    have hN : out.polySize = key.polySize ∧ out.tensor.length / out.polySize - 1 = key.dim := by
      obtain ⟨h1, hc⟩ := ite_ok hc
      obtain ⟨h2, hc⟩ := ite_ok hc
      simp only [bne_iff_ne, ne_eq, not_not] at h1 h2
      constructor <;> omega
    refine ⟨Nat.mul_pos (Nat.succ_pos _) hk.1, 1, ?_⟩
    show MaskE (key.dim * key.polySize) ((key.dim + 1) * key.polySize) 1
      (Glwe.encryptGlwe f key.data out.polySize out.tensor msg)
    rw [hN.1]
    refine maskE_encryptGlwe _ _ _ _ _ _ hk.1 hk.len ?_
    rw [← hq, ← hN.2, ← hN.1, Nat.sub_add_cancel hq1]
  | glweVec f key msgs =>
    have hm : modUsize msgs.length key.polySize = some (msgs.length % key.polySize) :=
      if_neg (Nat.pos_iff_ne_zero.1 hf.1)
    simp only [EncCall.check, Checks.glweCiphertextVectorEncryption, keyDims, hm, withVal, checks_bad] at hc
    obtain ⟨h, _⟩ := ite_ok hc
    simp only [bne_iff_ne, ne_eq, not_not] at h
    refine ⟨Nat.mul_pos (Nat.succ_pos _) hf.1, msgs.length / key.polySize,
      maskE_encryptGlweList _ _ _ _ _ hf.1 hf.len _ _ (by rw [List.length_replicate]; ring) ?_⟩
    exact (Nat.div_mul_cancel (Nat.dvd_of_mod_eq_zero h)).symm
  | glweVecInto f key out msgs =>
    simp only [EncCall.check, Checks.glweCiphertextVectorDiscardingEncryption, keyDims, checks_bad] at hc
    obtain ⟨hk, hp, hg, hd⟩ := hf
    have hq := Nat.div_mul_cancel hd
    obtain ⟨h1, hc⟩ := ite_ok hc
    obtain ⟨h2, hc⟩ := ite_ok hc
    obtain ⟨h3, hc⟩ := ite_ok hc
    simp only [bne_iff_ne, ne_eq, not_not] at h1 h2 h3
    have hsz : out.glweSize = key.dim + 1 := by omega
    refine ⟨Nat.mul_pos (Nat.succ_pos _) hk.1, out.tensor.length / (out.glweSize * out.polySize), ?_⟩
    show MaskE (key.dim * key.polySize) ((key.dim + 1) * key.polySize) _
      (Glwe.encryptGlweList f key.data out.polySize (out.glweSize - 1) out.tensor msgs)
    rw [← h2] at h3 ⊢
    rw [hsz, Nat.add_sub_cancel]
    refine maskE_encryptGlweList _ _ _ _ _ hk.1 hk.len _ _ ?_ ?_
    · rw [hsz, ← h2] at hq; exact hq.symm
    · rw [← h3, hsz, Nat.mul_comm]
  | glweVecZero f key count =>
    exact ⟨Nat.mul_pos (Nat.succ_pos _) hf.1, count,
      maskE_encryptZeroGlweList _ _ _ _ _ hf.1 hf.len _ (by rw [List.length_replicate]; ring)⟩
  | ggsw f key msg level baseLog =>
    exact ⟨Nat.mul_pos (Nat.succ_pos _) hf.1, _, maskE_encryptGgsw _ _ _ _ _ level hf.1 hf.len _ (by simp) _⟩
  | ggswInto f key out msg =>
    simp only [EncCall.check, Checks.ggswCiphertextScalarDiscardingEncryption, keyDims, checks_bad] at hc
    obtain ⟨hk, hp, hg, hd⟩ := hf
    have hq := Nat.div_mul_cancel hd
    obtain ⟨h1, hc⟩ := ite_ok hc
    obtain ⟨h2, hc⟩ := ite_ok hc
    simp only [bne_iff_ne, ne_eq, not_not] at h1 h2
    have hsz : out.glweSize = key.dim + 1 := by omega
    refine ⟨Nat.mul_pos (Nat.succ_pos _) hk.1,
      out.tensor.length / (out.glweSize * out.glweSize * out.polySize) * (key.dim + 1), ?_⟩
    show MaskE (key.dim * key.polySize) ((key.dim + 1) * key.polySize) _
      (Glwe.encryptGgsw f key.data out.polySize (out.glweSize - 1) out.baseLog out.tensor msg)
    rw [← h1, hsz, Nat.add_sub_cancel]
    refine maskE_encryptGgsw _ _ _ _ _ _ hk.1 hk.len _ ?_ _
    rw [hsz, ← h1] at hq
    rw [← Nat.mul_assoc (key.dim + 1)]
    exact hq.symm
  | bsk f lweKey key baseLog level =>
    have hL := keyGeneration_level hc
    exact ⟨Nat.mul_pos (Nat.succ_pos _) hf.1, _, maskE_bskFill _ _ _ level hf.1 hL lweKey
      (fun i c s _ h => maskE_encryptGgsw _ _ _ _ _ level hf.1 hf.len c h s) _ (List.Perm.refl _) _ (by simp)⟩
  | parBsk f lweKey key baseLog level sched levelSched rowSched =>
    have hL := keyGeneration_level hc
    obtain ⟨hk, p1, p2, p3⟩ := hf
    exact ⟨Nat.mul_pos (Nat.succ_pos _) hk.1, _, maskE_bskFill _ _ _ level hk.1 hL lweKey
      (fun i c s hi h => maskE_parEncryptGgsw _ _ _ _ _ level hk.1 hk.len _ (p2 i hi) _ (fun j hj => p3 i j hi hj) c h s)
      _ p1 _ (by simp)⟩
  | ksk f inKey outKey level baseLog =>
    have hL := keyGeneration_level hc
    exact ⟨Nat.succ_pos _, _, maskE_fillKeyswitchKey f inKey outKey baseLog level hL _ (by simp)⟩
  | pksk f inKey key level baseLog =>
    have hL := keyGeneration_level hc
    exact ⟨Nat.mul_pos (Nat.succ_pos _) hf.1, _, maskE_fillPackingKey f inKey _ baseLog level _ _ hf.1 hL hf.len _ (by simp)⟩
  | pfpksk f inKey key level baseLog fone P =>
    have hL := pfpksk_level hc
    exact ⟨Nat.mul_pos (Nat.succ_pos _) hf.1, _, maskE_parFillPrivateKey f inKey _ baseLog level _ _ hf.1 hL hf.len _ _ _
      (List.Perm.refl _) _ (by simp)⟩
  | cbs f inKey key baseLog level =>
    have hL := keyGeneration_level hc
    exact ⟨Nat.mul_pos (Nat.succ_pos _) hf.1, _, maskE_parFillCbsKeys bld f inKey _ baseLog level _ _ hf.1 hL hf.len _
      (List.Perm.refl _) _ (fun _ _ => List.Perm.refl _) _ (by simp)⟩
  | parCbs f inKey key baseLog level sched inner =>
    have hL := keyGeneration_level hc
    obtain ⟨hk, p1, p2⟩ := hf
    exact ⟨Nat.mul_pos (Nat.succ_pos _) hk.1, _, maskE_parFillCbsKeys bld f inKey _ baseLog level _ _ hk.1 hL hk.len _
      p1 _ p2 _ (by simp)⟩

end Verif.Session
