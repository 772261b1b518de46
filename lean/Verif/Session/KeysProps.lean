import Verif.Session.KeysSpec
import Verif.Session.DecryptProps
import Verif.Entity.CallsProps
import Verif.Glwe.Props3
import Verif.Lwe.Props3
import Verif.Pbs.Examples
import Verif.Pks.Cbs
import Verif.Circuit.Client
/-
C106: the evaluation keys that an engine generates at any point of a history, with and without threads, seeded and
not, do what they are for: the keyswitch calls with them return ciphertexts that decrypt to the same values under
the other key.
-/
set_option linter.unusedSectionVars false
namespace Verif.Session
open Verif.Random Verif.Engine Verif.Glwe Verif.Poly Verif.Decomp Verif.Pks
open Verif.Csprng (Build)
variable {w : Nat} (T : BitVec 128 → Nat → BitVec 8) (bld : Build)

/-! ### Lemmas -/

theorem keyGeneration_ok {b l : Nat} (h : Checks.keyGeneration bld b l w = .ok ()) : 0 < b ∧ 0 < l := by
  rw [Checks.keyGeneration, Checks.decomposition] at h
  obtain ⟨h1, h⟩ := checks_cons_ok h
  have h1 := bad_ok h1
  have h2 := bad_ok (checks_cons_ok h).1
  simp only [beq_eq_false_iff_ne] at h1 h2
  omega

theorem history_enc {cs : List Call} {e e' : Engine} {os : List Out} (h : run T bld cs e = some (os, e')) {i : Nat}
    {c : EncCall w} {ct : Cts w} (hc : cs[i]? = some (.enc c)) (ho : os[i]? = some (.cts ct)) :
    c.check bld = .ok () ∧ ∃ g g', c.exec bld g = some (ct.data, g') := by
  obtain ⟨o, e1, e2, h1, h2⟩ := run_get T bld cs e e' os i _ h hc
  rw [ho] at h1
  cases h1
  obtain ⟨k1, d, k2, k3⟩ := enc_run_ok (step_enc h2)
  subst k3
  exact ⟨k1, _, _, k2⟩

theorem history_seeded {cs : List Call} {e e' : Engine} {os : List Out} (h : run T bld cs e = some (os, e')) {i : Nat}
    {c : SeededCall w} {s : Seeded w} (hc : cs[i]? = some (.seeded c)) (ho : os[i]? = some (.seeded s)) :
    c.check bld = .ok () ∧ ∃ n g', c.exec ⟨newSrc T s.compressionSeed, n⟩ = some (s.bodies, g') ∧
      s.maskLen = c.shape.1 ∧ s.bodyLen = c.shape.2 := by
  obtain ⟨o, e1, e2, h1, h2⟩ := run_get T bld cs e e' os i _ h hc
  rw [ho] at h1
  cases h1
  obtain ⟨k1, sd, g1, sd', bs, en, _, _, k2, rfl⟩ := seeded_run_ok (step_seeded h2)
  exact ⟨k1, _, _, k2, rfl, rfl⟩

theorem decryptLwe_phase {key ct : List (BitVec w)} (hk : bld = .release ∨ Lwe.BinaryKey key)
    (hf : Lwe.Fits key ct) : decryptLwe bld key ct = .ok (Lwe.phase key ct) := by
  rw [decryptLwe, decryptWord_eq hk hf]; rfl

theorem switches_of_fill {f : GaussianFn w} {E : Nat} (hf : Pbs.NoiseBound f E) {s s' ksk0 ksk : List (BitVec w)}
    {b l : Nat} {g g' : EncGen} (hv : ValidParams w b l) (hs : Lwe.BinaryKey s) (hs' : bld = .release ∨ Lwe.BinaryKey s')
    (hk : ksk0.length = s.length * (l * (s'.length + 1))) (hm : l * (s'.length + 1) < 2 ^ 64) (hn : s.length + 1 < 2 ^ 64)
    (h : Lwe.fillKeyswitchKey f s s' b l (s'.length + 1) ksk0 g = some (ksk, g')) :
    SwitchesTo bld ⟨ksk, b, l, s'.length + 1⟩ s s' E := by
  obtain ⟨es, h1, h2, h3⟩ := Lwe.fillKsk_spec hv.level hk h
  intro out inp x ho hi hx
  rw [decryptLwe_phase bld (Or.inr hs) hi] at hx
  injection hx with hx
  subst hx
  have hlen := Lwe.rep_length _ _ _ _ _ h1
  obtain ⟨r, e, g1, g2, g3, g4⟩ := (Entity.C105_keyswitch bld out inp ⟨ksk, b, l, s'.length + 1⟩ ho
    (Entity.lt_of_mul_lt_r hv.level hm) hi hn (n := s.length) (n' := s'.length) ⟨hv.level, rfl, h2, hm⟩).2.2 rfl rfl s s'
    (fun i j => (es.getD (i * l + j) 0).toInt) E hv rfl rfl hs (fun i hi j hj => by
      rw [h3 i hi j hj]; congr 1
      exact (BitVec.ofInt_toInt).symm)
    (fun i hi j hj => by
      have hlt : i * l + j < es.length := by
        rw [hlen]
        calc i * l + j < i * l + l := by simp only at hj; omega
          _ = (i + 1) * l := by ring
          _ ≤ s.length * l := Nat.mul_le_mul_right _ hi
      refine Pbs.rep_forall (fun x : BitVec w => |x.toInt| ≤ (E : Int)) (randomNoise f)
        (fun g g' a h => Circuit.randomNoise_bound f E hf g g' a h) _ _ _ _ h1 _ ?_
      rw [List.getD_eq_getElem?_getD, List.getElem?_eq_getElem hlt]
      exact List.getElem_mem _)
  exact ⟨r, e, g1, by rw [decryptLwe_phase bld hs' g2, g3], g4⟩

theorem decryptGlwe_ok {key : GlweKey (BitVec w)} {r : Entity.GlweCiphertext (BitVec w)} (hr : r.Wf key.dim)
    (hp : r.polySize = key.polySize) :
    decryptGlwe key r = .ok (Glwe.decryptGlwe key.polySize key.data (List.replicate key.polySize 0) r.tensor) := by
  have hq : r.tensor.length / r.polySize - 1 = key.dim := by
    rw [hr.len, Nat.mul_div_cancel _ hr.poly, Nat.add_sub_cancel]
  rw [decryptGlwe, Checks.glweCiphertextDecryption, keyDims, ctDims, hq, hp]
  simp only [checks, bad, bne_self_eq_false]
  rfl

theorem list_shape {inp : Entity.LweList (BitVec w)} {n c : Nat} (hi : inp.Wf n c) :
    LweVec.Shape (R := BitVec w) ⟨inp.lweSize, inp.tensor⟩ n c := ⟨hi.size, hi.len⟩

theorem phases_of_decrypt {s : List (BitVec w)} {inp : Entity.LweList (BitVec w)} {c : Nat} {xs : List (BitVec w)}
    (hs : Lwe.BinaryKey s) (hi : inp.Wf s.length c) (h : decryptLweVec bld s ⟨inp.lweSize, inp.tensor⟩ = .ok xs) (t : Nat) :
    xs.getD t 0 = if t < c then Lwe.phase s (block (s.length + 1) inp.tensor t) else 0 := by
  rw [(decryptLweVec_eq (Or.inr hs) (list_shape hi)).1] at h
  injection h with h
  subst h
  split
  · rename_i ht
    rw [List.getD_eq_getElem?_getD, List.getElem?_map, List.getElem?_range ht]
    simp only [Option.map_some, Option.getD_some, LweVec.get, hi.size]
    rfl
  · rename_i ht
    rw [List.getD_eq_getElem?_getD, List.getElem?_map, List.getElem?_eq_none (by simp; omega)]
    rfl

theorem seededKskAux_flatten {f : GaussianFn w} {key : List (BitVec w)} {b l : Nat} :
    ∀ (bits : List (BitVec w)) (bls : List (List (BitVec w))) (g : EncGen) (bls' : List (List (BitVec w))) (g' : EncGen),
    (∀ x ∈ bls, x.length = l) → bls.length = bits.length →
    Lwe.fillSeededKeyswitchKeyAux f key b l bits bls g = some (bls', g') → bls'.flatten.length = bits.length * l
  | [], [], g, bls', g', _, _, h => by
    simp only [Lwe.fillSeededKeyswitchKeyAux, Option.some.injEq, Prod.mk.injEq] at h
    rw [← h.1]; simp
  | bit :: bits, bl :: bls, g, bls', g', hb, h2, h => by
    simp only [Lwe.fillSeededKeyswitchKeyAux] at h
    cases h3 : Lwe.encryptSeededLweList f key bl (Lwe.kskMessages b l bit) g with
    | none => rw [h3] at h; cases h
    | some r =>
      obtain ⟨bl', g1⟩ := r
      have hl := ((Lwe.C17_lwe_list f key (List.replicate ((Lwe.kskMessages b l bit).length * (key.length + 1)) 0) bl
        (Lwe.kskMessages b l bit) g (by simp) (by rw [Lwe.kskMessages_length]; exact hb bl (by simp))).1 _ _ h3).1
      rw [Lwe.kskMessages_length] at hl
      rw [h3] at h
      simp only at h
      cases h4 : Lwe.fillSeededKeyswitchKeyAux f key b l bits bls g1 with
      | none => rw [h4] at h; cases h
      | some r =>
        obtain ⟨bls2, g2⟩ := r
        rw [h4] at h
        simp only [Option.some.injEq, Prod.mk.injEq] at h
        rw [← h.1, List.flatten_cons, List.length_append, hl,
          seededKskAux_flatten bits bls g1 bls2 g2 (fun x hx => hb x (by simp [hx])) (by simpa using h2) h4,
          List.length_cons]
        ring

theorem seededKsk_length {f : GaussianFn w} {s s' bodies bs : List (BitVec w)} {b l : Nat} (hl : 0 < l) {g g' : EncGen}
    (hb : bodies.length = s.length * l) (h : Lwe.fillSeededKeyswitchKey f s s' b l bodies g = some (bs, g')) :
    bs.length = s.length * l := by
  simp only [Lwe.fillSeededKeyswitchKey] at h
  split at h
  · cases h
  · rename_i blks g1 he
    simp only [Option.some.injEq, Prod.mk.injEq] at h
    rw [← h.1]
    exact seededKskAux_flatten s _ g blks g1 (chunks_len _ hl _ _ hb) (chunks_length _ hl _ _ hb) he

theorem seededBsk_length {f : GaussianFn w} {N k b level : Nat} (hN : 0 < N) (hL : 0 < level)
    {lweKey key bodies bs : List (BitVec w)} {g g' : EncGen} (hk : KeyFits N k key)
    (hb : bodies.length = lweKey.length * (level * ((k + 1) * N)))
    (h : fillSeededBsk f lweKey key N k b level bodies g = some (bs, g')) :
    bs.length = lweKey.length * (level * ((k + 1) * N)) := by
  have hkN : 0 < (k + 1) * N := Nat.mul_pos (by omega) hN
  have hS : 0 < level * ((k + 1) * N) := Nat.mul_pos hL hkN
  exact ((bskFill_iff (fun _ => encryptSeededGgsw f key N k b) _ hS lweKey N k level
    (List.range lweKey.length) (List.Perm.refl _) bodies hb g g' bs
    (fun i c s g1 c' g2 hc hf => by
      rw [encryptSeededGgsw_eq_par f key N k b level hN c s g1 hc] at hf
      exact fillSeeded_size f N k b level hN key hk c s g1 c' g2 _ _ (List.Perm.refl _) (fun _ _ => List.Perm.refl _)
        hc hf)).1 h).2.2.1

theorem draw_index {i j l n : Nat} (hi : i < n) (hj : j < l) : i * l + j < n * l :=
  calc i * l + j < i * l + l := by omega
    _ = (i + 1) * l := by ring
    _ ≤ n * l := Nat.mul_le_mul_right _ hi

theorem packs_of_key {E : Int} {s : List (BitVec w)} {key : GlweKey (BitVec w)} {ksk : List (BitVec w)} {b l : Nat}
    {err : Nat → Nat → Rq (BitVec w) key.polySize} (hv : ValidParams w b l) (hs : Lwe.BinaryKey s) (hk : KeyOk key)
    (hke : Pks.KeyEnc key.polySize key.dim b l s.length key.data ksk (fun i => const key.polySize (s.getD i 0)) err)
    (he : ∀ i j, i < s.length → j < l → Small key.polySize E (err i j))
    (hm : l * ((key.dim + 1) * key.polySize) < 2 ^ 64) (hn : s.length < 2 ^ 64) :
    PacksTo bld ⟨ksk, b, l, key.dim + 1, key.polySize⟩ s key E := by
  have hkf := key_fits hk.2
  rintro ⟨ot, oN⟩ inp c xs w1 w2 w3 w4 w5
  simp only at w2
  subst w2
  have hph := phases_of_decrypt bld hs w3 w5
  obtain ⟨r, Er, r1, r2, r3, r4⟩ := (Entity.C105_packing bld ⟨ot, key.polySize⟩ inp
    ⟨ksk, b, l, key.dim + 1, key.polySize⟩ w1 w3
    (n' := s.length) (k' := key.dim) ⟨hv.level, hk.1, rfl, hke.1, hm, hn⟩).2.2.2.2 rfl rfl rfl w4 s key.data
    (List.replicate key.polySize 0) err E hv rfl hke he hs hkf (by simp)
  refine ⟨r, _, Er, r1, decryptGlwe_ok r2 r3, ?_, fun t ht => ?_⟩
  · exact (decryptGlwe_spec _ _ hk.1 _ _ _ hkf (by rw [CtFits, r2.len, r3]) (by simp)).1
  · rw [hph t]
    exact r4 t ht

theorem packsPrivately_of_key {E A : Int} {s P : List (BitVec w)} {lam : BitVec w} {key : GlweKey (BitVec w)}
    {ksk : List (BitVec w)} {b l : Nat} {err : Nat → Nat → Rq (BitVec w) key.polySize} (hv : ValidParams w b l)
    (hs : Lwe.BinaryKey s) (hk : KeyOk key)
    (hke : Pks.KeyEnc key.polySize key.dim b l (s.length + 1) key.data ksk
      (fun i => const key.polySize (lam * (s ++ [-1]).getD i 0) * toRq key.polySize P) err)
    (he : ∀ i j, i < s.length + 1 → j < l → Small key.polySize E (err i j))
    (hA : Small key.polySize A (const key.polySize lam * toRq key.polySize P))
    (hm : l * ((key.dim + 1) * key.polySize) < 2 ^ 64) (hn : s.length + 1 < 2 ^ 64) :
    PacksPrivatelyTo bld ⟨ksk, b, l, key.dim + 1, key.polySize⟩ s key lam P E A := by
  have hkf := key_fits hk.2
  rintro ⟨ot, oN⟩ inp c xs w1 w2 w3 w4 w5
  simp only at w2
  subst w2
  have hph := phases_of_decrypt bld hs w3 w5
  obtain ⟨r, Er, r1, r2, r3, r4, r5⟩ := (Entity.C105_private_packing bld ⟨ot, key.polySize⟩ inp
    ⟨ksk, b, l, key.dim + 1, key.polySize⟩ w1 w3
    (n' := s.length) (k' := key.dim) ⟨hv.level, hk.1, rfl, hke.1, hm, hn⟩).2.2.2.2 rfl rfl rfl w4 s key.data P lam
    err A E hv rfl hke he hA hs
  obtain ⟨d1, d2⟩ := decryptGlwe_spec key.polySize key.dim hk.1 key.data (List.replicate key.polySize 0) r.tensor hkf
    (by rw [CtFits, r2.len, r3]) (by simp)
  refine ⟨r, _, Er, r1, decryptGlwe_ok r2 r3, d1, r4, ?_⟩
  have hsum : ∑ t ∈ Finset.range c, Xq (BitVec w) key.polySize ^ t * const key.polySize (xs.getD t 0) =
      ∑ t ∈ Finset.range c, Xq (BitVec w) key.polySize ^ t *
        const key.polySize (Lwe.phase s (block (s.length + 1) inp.tensor t)) :=
    Finset.sum_congr rfl fun t ht => by rw [hph t, if_pos (Finset.mem_range.1 ht)]
  rw [d2, hsum]
  exact r5

/-! ### The properties -/

/-- C106, keyswitch keys: a keyswitch key generated at any point of a history of calls switches from the first key to
the second. -/
theorem C106_keyswitch_key (cs : List Call) (e e' : Engine) (os : List Out) (h : run T bld cs e = some (os, e'))
    (i : Nat) (f : GaussianFn w) (s s' : List (BitVec w)) (level b : Nat) (ct : Cts w)
    (hc : cs[i]? = some (.enc (.ksk f s s' level b))) (ho : os[i]? = some (.cts ct)) (E : Nat) (hf : Pbs.NoiseBound f E)
    (hbl : b * level < w) (hs : Lwe.BinaryKey s) (hs' : bld = .release ∨ Lwe.BinaryKey s')
    (hm : level * (s'.length + 1) < 2 ^ 64) (hn : s.length + 1 < 2 ^ 64) :
    SwitchesTo bld ⟨ct.data, b, level, s'.length + 1⟩ s s' E := by
  obtain ⟨h1, g, g', h2⟩ := history_enc T bld h hc ho
  have hv := keyGeneration_ok bld h1
  exact switches_of_fill bld hf ⟨hv.1, hv.2, hbl⟩ hs hs' (by simp) hm hn h2

/-- C106, seeded keyswitch keys: likewise, after their transformation, which does not panic. -/
theorem C106_seeded_keyswitch_key (cs : List Call) (e e' : Engine) (os : List Out)
    (h : run T bld cs e = some (os, e')) (i : Nat) (f : GaussianFn w) (s s' : List (BitVec w)) (level b : Nat)
    (sd : Seeded w) (hc : cs[i]? = some (.seeded (.ksk f s s' level b))) (ho : os[i]? = some (.seeded sd)) (E : Nat)
    (hf : Pbs.NoiseBound f E) (hbl : b * level < w) (hs : Lwe.BinaryKey s) (hs' : bld = .release ∨ Lwe.BinaryKey s')
    (hm : level * (s'.length + 1) < 2 ^ 64) (hn : s.length + 1 < 2 ^ 64) :
    ∃ ksk, transformKeyswitchKey T level b sd = .ok ksk ∧ ksk.baseLog = b ∧ ksk.levelCount = level ∧
      SwitchesTo bld ksk s s' E := by
  obtain ⟨h1, n, g', h2, h3, _⟩ := history_seeded T bld h hc ho
  have hv := keyGeneration_ok bld h1
  have hlen : (List.replicate (s.length * level) (0 : BitVec w)).length = s.length * level := by simp
  have hbl' : sd.bodies.length = s.length * level := seededKsk_length hv.2 hlen h2
  obtain ⟨ksk, k1, k2⟩ := (Lwe.C17_keyswitch_key f s s' (List.replicate (s.length * (level * (s'.length + 1))) 0)
    (List.replicate (s.length * level) 0) b level hv.2 ⟨newSrc T sd.compressionSeed, n⟩ (by simp) hlen).1 _ _ h2
  refine ⟨⟨ksk, b, level, s'.length + 1⟩, ?_, rfl, rfl,
    switches_of_fill bld hf ⟨hv.1, hv.2, hbl⟩ hs hs' (by simp) hm hn k2⟩
  have h3 : sd.maskLen = s'.length := h3
  rw [transformKeyswitchKey, h3, hbl', Nat.mul_div_cancel _ hv.2, k1]
  rfl

/-- C106, packing keyswitch keys. -/
theorem C106_packing_key (cs : List Call) (e e' : Engine) (os : List Out) (h : run T bld cs e = some (os, e'))
    (i : Nat) (f : GaussianFn w) (s : List (BitVec w)) (key : GlweKey (BitVec w)) (level b : Nat) (ct : Cts w)
    (hc : cs[i]? = some (.enc (.pksk f s key level b))) (ho : os[i]? = some (.cts ct)) (E : Int)
    (hf : Pbs.NoiseBound f E) (hbl : b * level < w) (hs : Lwe.BinaryKey s) (hk : KeyOk key)
    (hm : level * ((key.dim + 1) * key.polySize) < 2 ^ 64) (hn : s.length < 2 ^ 64) :
    PacksTo bld ⟨ct.data, b, level, key.dim + 1, key.polySize⟩ s key E := by
  obtain ⟨h1, g, g', h2⟩ := history_enc T bld h hc ho
  have hv := keyGeneration_ok bld h1
  have hkf := key_fits hk.2
  obtain ⟨es, e1, e2, e3⟩ := Pks.fillPackingKey_spec hk.1 hv.2 hkf (by simp) h2
  exact packs_of_key bld ⟨hv.1, hv.2, hbl⟩ hs hk e3
    (fun i j hi hj => small_draws hf e1 _ (draw_index hi hj) (e2 i j hi hj)) hm hn

/-- C106, private functional packing keyswitch keys, for the polynomial `P` and a function with value `lam` at one. -/
theorem C106_private_packing_key (cs : List Call) (e e' : Engine) (os : List Out) (h : run T bld cs e = some (os, e'))
    (i : Nat) (f : GaussianFn w) (s : List (BitVec w)) (key : GlweKey (BitVec w)) (level b : Nat) (lam : BitVec w)
    (P : List (BitVec w)) (ct : Cts w) (hc : cs[i]? = some (.enc (.pfpksk f s key level b lam P)))
    (ho : os[i]? = some (.cts ct)) (E A : Int) (hf : Pbs.NoiseBound f E)
    (hA : Small key.polySize A (const key.polySize lam * toRq key.polySize P)) (hbl : b * level < w)
    (hs : Lwe.BinaryKey s) (hk : KeyOk key)
    (hm : level * ((key.dim + 1) * key.polySize) < 2 ^ 64) (hn : s.length + 1 < 2 ^ 64) :
    PacksPrivatelyTo bld ⟨ct.data, b, level, key.dim + 1, key.polySize⟩ s key lam P E A := by
  obtain ⟨h1, g, g', h2⟩ := history_enc T bld h hc ho
  simp only [EncCall.check, Checks.lwePrivateFunctionalPackingKeyswitchKeyGeneration, Checks.decomposition,
    List.cons_append, List.nil_append] at h1
  obtain ⟨a1, h1⟩ := checks_cons_ok h1
  obtain ⟨a2, h1⟩ := checks_cons_ok h1
  obtain ⟨_, h1⟩ := checks_cons_ok h1
  have a1 := bad_ok a1
  have a2 := bad_ok a2
  have a3 := bad_ok (checks_cons_ok h1).1
  simp only [beq_eq_false_iff_ne, bne_eq_false_iff_eq] at a1 a2 a3
  have hl : 0 < level := by omega
  have hkf := key_fits hk.2
  obtain ⟨-, -, es, e1, e2, e3⟩ := Pks.parFillPrivateKey_spec hk.1 hl hkf a3.symm (by simp) _ (List.Perm.refl _) h2
  refine packsPrivately_of_key bld ⟨by omega, hl, hbl⟩ hs hk e3 (fun i j hi hj => ?_) hA hm hn
  obtain ⟨gn, h⟩ := e1 i hi
  exact small_draws hf h j hj (e2 i j hi hj)

/-- C106, bootstrap keys: a bootstrap key generated at any point of a history, by one thread or by several in any
order, holds encryptions of the bits of the LWE key under the GLWE key, with errors of the noise sampler. This is
what C27 to C31, C34, C42 and C63 ask of the key. -/
theorem C106_bootstrap_key (cs : List Call) (e e' : Engine) (os : List Out) (h : run T bld cs e = some (os, e'))
    (i : Nat) (c : EncCall w) (f : GaussianFn w) (s : List (BitVec w)) (key : GlweKey (BitVec w)) (b level : Nat)
    (ct : Cts w) (hc : cs[i]? = some (.enc c)) (hb : c.bootstrapKey = some (f, s, key, b, level)) (hsc : c.Scheduled)
    (ho : os[i]? = some (.cts ct)) (E : Int) (hf : Pbs.NoiseBound f E) (hk : KeyOk key) :
    Pbs.BskEnc key.polySize key.dim b level s key.data ct.data E := by
  obtain ⟨h1, g, g', h2⟩ := history_enc T bld h hc ho
  have hkf := key_fits hk.2
  cases c <;> simp only [EncCall.bootstrapKey, Option.some.injEq, Prod.mk.injEq, reduceCtorEq] at hb
  case bsk f s key b level =>
    obtain ⟨rfl, rfl, rfl, rfl, rfl⟩ := hb
    have hv := keyGeneration_ok bld h1
    simp only [EncCall.exec] at h2
    have hsch : BskSchedules s.length level key.dim (List.range s.length) (fun _ => List.range level)
      (fun _ _ => List.range (key.dim + 1)) := ⟨.refl _, fun _ => .refl _, fun _ _ => .refl _⟩
    rw [← (C18_bootstrap_key f s key.data _ key.polySize key.dim b level hk.1 hv.2 _ _ _ hsch g).1 (by simp)] at h2
    exact Pbs.C31_generated_key f _ _ b level hk.1 hv.2 E hf s key.data _ _ g g' _ _ _ hkf (by simp) hsch h2
  case parBsk f s key b level _ _ _ =>
    obtain ⟨rfl, rfl, rfl, rfl, rfl⟩ := hb
    have hv := keyGeneration_ok bld h1
    simp only [EncCall.exec] at h2
    exact Pbs.C31_generated_key f _ _ b level hk.1 hv.2 E hf s key.data _ _ g g' _ _ _ hkf (by simp) hsc h2

/-- C106, seeded bootstrap keys: likewise, after their transformation, which does not panic. -/
theorem C106_seeded_bootstrap_key (cs : List Call) (e e' : Engine) (os : List Out)
    (h : run T bld cs e = some (os, e')) (i : Nat) (c : SeededCall w) (f : GaussianFn w) (s : List (BitVec w))
    (key : GlweKey (BitVec w)) (b level : Nat) (sd : Seeded w) (hc : cs[i]? = some (.seeded c))
    (hb : c.bootstrapKey = some (f, s, key, b, level)) (hsc : c.Scheduled) (ho : os[i]? = some (.seeded sd)) (E : Int)
    (hf : Pbs.NoiseBound f E) (hk : KeyOk key) :
    ∃ bsk, transformBootstrapKey T level b sd = .ok bsk ∧ bsk.polySize = key.polySize ∧ bsk.glweSize = key.dim + 1 ∧
      bsk.levelCount = level ∧ bsk.baseLog = b ∧
      Pbs.BskEnc key.polySize key.dim b level s key.data bsk.tensor E := by
  obtain ⟨h1, n, g', h2, h3, h4⟩ := history_seeded T bld h hc ho
  have hkf := key_fits hk.2
  have hsch : BskSchedules s.length level key.dim (List.range s.length) (fun _ => List.range level)
      (fun _ _ => List.range (key.dim + 1)) := ⟨.refl _, fun _ => .refl _, fun _ _ => .refl _⟩
  have key2 : 0 < level ∧ sd.maskLen = key.dim * key.polySize ∧ sd.bodyLen = key.polySize ∧
      fillSeededBsk f s key.data key.polySize key.dim b level
        (List.replicate (s.length * (level * ((key.dim + 1) * key.polySize))) 0) ⟨newSrc T sd.compressionSeed, n⟩ =
        some (sd.bodies, g') := by
    cases c <;> simp only [SeededCall.bootstrapKey, Option.some.injEq, Prod.mk.injEq, reduceCtorEq] at hb
    case bsk f s key b level =>
      obtain ⟨rfl, rfl, rfl, rfl, rfl⟩ := hb
      exact ⟨(keyGeneration_ok bld h1).2, h3, h4, h2⟩
    case parBsk f s key b level _ _ _ =>
      obtain ⟨rfl, rfl, rfl, rfl, rfl⟩ := hb
      have hv := keyGeneration_ok bld h1
      simp only [SeededCall.exec] at h2
      rw [(C18_bootstrap_key f s key.data _ key.polySize key.dim b level hk.1 hv.2 _ _ _ hsc _).2 (by simp)] at h2
      exact ⟨hv.2, h3, h4, h2⟩
  obtain ⟨hl, m1, m2, h5⟩ := key2
  obtain ⟨bsk, k1, k2⟩ := (C17_bootstrap_key f key.polySize key.dim b level hk.1 hl s key.data
    (List.replicate (s.length * (level * ((key.dim + 1) * ((key.dim + 1) * key.polySize)))) 0)
    _ ⟨newSrc T sd.compressionSeed, n⟩ hkf (by simp) (by simp)).1 _ _ h5
  have hbl := seededBsk_length hk.1 hl hkf (by simp) h5
  have hpos : 0 < level * ((key.dim + 1) * key.polySize) := Nat.mul_pos hl (Nat.mul_pos (by omega) hk.1)
  refine ⟨⟨bsk, key.polySize, key.dim + 1, level, b⟩, ?_, rfl, rfl, rfl, rfl, ?_⟩
  · simp only [transformBootstrapKey]
    rw [m1, m2, Nat.mul_div_cancel _ hk.1, hbl, Nat.mul_div_cancel _ hpos, k1 _ (by simp)]
    rfl
  · rw [← (C18_bootstrap_key f s key.data _ key.polySize key.dim b level hk.1 hl _ _ _ hsch _).1 (by simp)] at k2
    exact Pbs.C31_generated_key f _ _ b level hk.1 hl E hf s key.data _ _ _ _ _ _ _ hkf (by simp) hsch k2

/-- C106, keys of a circuit bootstrap: the keys generated at any point of a history, by one thread or by several in
any order, are private functional keys for the factors of the rows of a GGSW ciphertext (what C49, C50 ask). -/
theorem C106_circuit_keys (cs : List Call) (e e' : Engine) (os : List Out) (h : run T bld cs e = some (os, e'))
    (i : Nat) (c : EncCall w) (f : GaussianFn w) (s : List (BitVec w)) (key : GlweKey (BitVec w)) (b level : Nat)
    (ct : Cts w) (hc : cs[i]? = some (.enc c)) (hb : c.circuitKeys = some (f, s, key, b, level)) (hsc : c.Scheduled)
    (ho : os[i]? = some (.cts ct)) (E : Int) (hf : Pbs.NoiseBound f E) (hk : KeyOk key) :
    Pks.CbsKeys key.polySize key.dim b level s key.data ct.data E := by
  obtain ⟨h1, g, g', h2⟩ := history_enc T bld h hc ho
  have hkf := key_fits hk.2
  cases c <;> simp only [EncCall.circuitKeys, Option.some.injEq, Prod.mk.injEq, reduceCtorEq] at hb
  case cbs f s key b level =>
    obtain ⟨rfl, rfl, rfl, rfl, rfl⟩ := hb
    have hv := keyGeneration_ok bld h1
    simp only [EncCall.exec] at h2
    exact (Pks.C33_cbs_keys bld f E hf hk.1 b level hv.2 s key.data _ _ hkf g g' (by simp) _ (.refl _) _
      (fun _ _ => .refl _) h2).1
  case parCbs f s key b level _ _ =>
    obtain ⟨rfl, rfl, rfl, rfl, rfl⟩ := hb
    have hv := keyGeneration_ok bld h1
    simp only [EncCall.exec] at h2
    exact (Pks.C33_cbs_keys bld f E hf hk.1 b level hv.2 s key.data _ _ hkf g g' (by simp) _ hsc.1 _ hsc.2 h2).1

/-! ### Examples -/

/-- The noise of the examples is at most 15. -/
theorem exNoise_bound : Pbs.NoiseBound exNoise (15 : Nat) := by
  intro u v _
  have h : ∀ x : BitVec 32, |(x >>> 28).toInt| ≤ (15 : Int) := by
    intro x
    have h1 : (x >>> 28).toNat ≤ 15 := by
      rw [BitVec.toNat_ushiftRight, Nat.shiftRight_eq_div_pow]
      have := x.isLt
      omega
    rw [BitVec.toInt_eq_toNat_of_lt (by omega), abs_of_nonneg (by omega)]
    omega
  exact ⟨h _, h _⟩

/-- A history that makes a key of every kind. -/
def keyCalls : List Call :=
  [.enc (w := 32) (.lwe exNoise [1, 0] (1 <<< 30)), .enc (w := 32) (.ksk exNoise [1, 0] [1, 1, 0] 3 4),
   .seeded (w := 32) (.ksk exNoise [1, 0] [1, 1, 0] 3 4), .enc (w := 32) (.pksk exNoise [1, 0] decKey 3 4),
   .enc (w := 32) (.pfpksk exNoise [1, 0] decKey 3 4 1 [1, 0]), .enc (w := 32) (.bsk exNoise [1] decKey 4 3),
   .seeded (w := 32) (.parBsk exNoise [1] decKey 4 1 [0] (fun _ => [0]) (fun _ _ => [2, 0, 1])),
   .enc (w := 32) (.cbs exNoise [1] decKey 4 1)]

/-- The history succeeds; the keyswitch calls with its two keyswitch keys turn its ciphertext of `2^30` into
ciphertexts that decrypt to nearly `2^30`, and the packing calls likewise. -/
def keyValues : List Out → Option (List (Res EErr (List (BitVec 32))))
  | [.cts (w := 32) a, .cts (w := 32) k, .seeded (w := 32) k', .cts (w := 32) p, .cts (w := 32) q, .cts (w := 32) b,
     .seeded (w := 32) b', .cts (w := 32) _] =>
    let one : Res EErr (BitVec 32) → Res EErr (List (BitVec 32)) := fun r => match r with
      | .ok x => .ok [(x + 8388608#32) >>> 24] | .err e => .err e | .panic => .panic
    let sw : Entity.KeyswitchKey (BitVec 32) → Res EErr (List (BitVec 32)) := fun ksk =>
      match Entity.discardKeyswitch .debug [0, 0, 0, 0] a.data ksk with
      | .ok r => one (decryptLwe .debug [1, 1, 0] r) | .err e => .err e | .panic => .panic
    let pk : Res EErr (Entity.GlweCiphertext (BitVec 32)) → Res EErr (List (BitVec 32)) := fun r => match r with
      | .ok c => (match decryptGlwe decKey c with
        | .ok y => .ok (y.map (fun v : BitVec 32 => (v + 8388608#32) >>> 24)) | .err e => .err e | .panic => .panic)
      | .err e => .err e | .panic => .panic
    some [sw ⟨k.data, 4, 3, 4⟩,
      match transformKeyswitchKey exTable 3 4 k' with | .ok x => sw x | .err e => .err e | .panic => .panic,
      pk (Entity.discardPackingKeyswitch .debug ⟨[0, 0, 0, 0, 0, 0], 2⟩ ⟨a.data, 3⟩ ⟨p.data, 4, 3, 3, 2⟩),
      pk (Entity.discardPrivatePackingKeyswitch .debug ⟨[0, 0, 0, 0, 0, 0], 2⟩ ⟨a.data, 3⟩ ⟨q.data, 4, 3, 3, 2⟩),
      .ok [BitVec.ofNat 32 b.data.length],
      match transformBootstrapKey exTable 1 4 b' with
      | .ok x => .ok [BitVec.ofNat 32 x.tensor.length] | .err e => .err e | .panic => .panic]
  | _ => none

example : ((newDefault exTable 9).bind (run exTable .debug keyCalls)).map (fun r => keyValues r.1) =
    some (some [.ok [64], .ok [64], .ok [64, 0], .ok [64, 0], .ok [54], .ok [18]]) := by
  decide +kernel

example : KeyOk decKey ∧ Lwe.BinaryKey ([1, 0] : List (BitVec 32)) ∧ (4 * 3 < 32) ∧
    SeededCall.Scheduled (w := 32) (.parBsk exNoise [1] decKey 4 1 [0] (fun _ => [0]) (fun _ _ => [2, 0, 1])) := by
  refine ⟨⟨by decide, by decide⟩, ?_, by decide, ⟨by decide, fun _ => ?_, fun _ _ => ?_⟩⟩
  · intro x hx; simp at hx; rcases hx with rfl | rfl <;> simp
  · exact (by decide : [0].Perm (List.range 1))
  · exact (by decide : [2, 0, 1].Perm (List.range 3))

end Verif.Session
