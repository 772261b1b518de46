import Verif.Pks.Cbs
import Verif.Glwe.Props3
/-
Property C19 for GLWE lists, bootstrap keys, private functional keyswitch keys and the keys of the
circuit bootstrap. `MasksFrom` is the specification: the masks are consecutive words of the mask stream.
-/
set_option linter.unusedSectionVars false
namespace Verif.Pks
open Verif.Random Verif.Poly Verif.Glwe

variable {w : Nat}

/-- The `count` GLWE ciphertexts of the flat container `cts` have, as masks, the consecutive words of the
stream of `g` starting at its position: word `i` of the mask of ciphertext `t` is word `t k N + i`. -/
def MasksFrom (N k count : Nat) (g : Src) (cts : List (BitVec w)) : Prop :=
  ∀ t i, t < count → i < k * N → (block ((k + 1) * N) cts t).getD i 0 =
    wordAt w g.table (g.pos + (t * (k * N) + i) * (w / 8))

theorem take_masks {N k : Nat} {g : Src} {c : List (BitVec w)} {p : Nat}
    (h : c.take (k * N) = maskWords w g p (k * N)) (i : Nat) (hi : i < k * N) :
    c.getD i 0 = wordAt w g.table (p + i * (w / 8)) := by
  have : c.getD i 0 = (c.take (k * N)).getD i 0 := by
    simp only [List.getD_eq_getElem?_getD, List.getElem?_take_of_lt hi]
  rw [this, h]
  simp only [maskWords, List.getD_eq_getElem?_getD, List.getElem?_map,
    List.getElem?_range hi, Option.map_some, Option.getD_some]

/-! ### Lists of GLWE ciphertexts -/

theorem listAux_masks {f : GaussianFn w} {N k : Nat} {key : List (BitVec w)} :
    ∀ (cs ms : List (List (BitVec w))) (g g' : EncGen) (cts : List (List (BitVec w))),
    (∀ c ∈ cs, CtFits N k c) → cs.length = ms.length → g.mask.pos ≤ g.mask.bound →
    encryptGlweListAux f key N cs ms g = some (cts, g') →
    g'.mask = g.mask.skip (cs.length * mB w k N) ∧ cts.length = cs.length ∧
    ∀ t c, cts[t]? = some c →
      c.take (k * N) = maskWords w g.mask (g.mask.pos + t * mB w k N) (k * N)
  | [], [], g, g', cts, _, _, _, h => by
    simp only [encryptGlweListAux, Option.some.injEq, Prod.mk.injEq] at h
    obtain ⟨rfl, rfl⟩ := h
    simp [Src.skip]
  | c :: cs, m :: ms, g, g', cts, hf, hl, hb, h => by
    simp only [encryptGlweListAux] at h
    split at h
    · cases h
    · rename_i ct g1 e1
      split at h
      · cases h
      · rename_i cts1 g2 e2
        simp only [Option.some.injEq, Prod.mk.injEq] at h
        obtain ⟨rfl, rfl⟩ := h
        obtain ⟨a1, a2, a3⟩ := Glwe.encrypt_mask (hf c (by simp)) hb e1
        obtain ⟨b1, b2, b3⟩ := listAux_masks cs ms g1 g2 cts1 (fun x hx => hf x (by simp [hx]))
          (by simpa using hl) (by rw [a3]; exact a2) e2
        refine ⟨?_, by simp [b2], ?_⟩
        · rw [b1, a3, List.length_cons, Nat.add_mul, Nat.one_mul]
          simp only [Src.skip]
          congr 1; omega
        · intro t x hx
          cases t with
          | zero =>
            simp only [List.getElem?_cons_zero, Option.some.injEq] at hx
            subst hx
            rw [a1, Nat.zero_mul, Nat.add_zero]
          | succ t =>
            rw [b3 t x (by simpa using hx), a3]
            simp only [maskWords, Src.skip]
            apply List.map_congr_left
            intro i _
            congr 1
            rw [Nat.add_mul t, Nat.one_mul]; omega
  | [], _ :: _, _, _, _, _, hl, _, _ => by simp at hl
  | _ :: _, [], _, _, _, _, hl, _, _ => by simp at hl

theorem listAux_ok {f : GaussianFn w} {N k : Nat} {key : List (BitVec w)} :
    ∀ (cs ms : List (List (BitVec w))) (g : EncGen) (es : List (List (BitVec w))) (gn : Src),
    (∀ c ∈ cs, CtFits N k c) → cs.length = ms.length →
    g.mask.pos + cs.length * (k * N * (w / 8)) ≤ g.mask.bound →
    rep cs.length (randomNoiseTensor f N) g.noise = some (es, gn) →
    ∃ cts g', encryptGlweListAux f key N cs ms g = some (cts, g')
  | [], [], g, es, gn, _, _, _, _ => ⟨[], g, rfl⟩
  | c :: cs, m :: ms, g, es, gn, hf, hl, hb, h => by
    simp only [List.length_cons, rep] at h
    split at h
    · cases h
    · rename_i e g1 he
      split at h
      · cases h
      · rename_i es1 g2 hes
        rw [List.length_cons, Nat.add_mul, Nat.one_mul] at hb
        obtain ⟨ct, hct⟩ := encryptGlwe_ok f key c m N k g (hf c (by simp)) (by omega) e g1 he
        obtain ⟨cts, g', hcts⟩ := listAux_ok (key := key) cs ms
          { mask := g.mask.skip (k * N * (w / 8)), noise := g1 } es1 g2 (fun x hx => hf x (by simp [hx]))
          (by simpa using hl) (by simp only [Src.skip]; omega) hes
        exact ⟨ct :: cts, g', by simp only [encryptGlweListAux, hct, hcts]⟩
  | [], _ :: _, _, _, _, _, hl, _, _ => by simp at hl
  | _ :: _, [], _, _, _, _, hl, _, _ => by simp at hl

/-- C19 (GLWE lists): the masks are consecutive words of the mask stream, which ends just after the
last. -/
theorem C19_glwe_list_masks (f : GaussianFn w) (N k n : Nat) (hN : 0 < N) (key out msgs cts : List (BitVec w))
    (g g' : EncGen) (hk : KeyFits N k key) (ho : out.length = n * ((k + 1) * N)) (hm : msgs.length = n * N)
    (hb : g.mask.pos ≤ g.mask.bound)
    (h : encryptGlweList f key N k out msgs g = some (cts, g')) :
    MasksFrom N k n g.mask cts ∧ g'.mask = g.mask.skip (n * (k * N) * (w / 8)) := by
  have hkN : 0 < (k + 1) * N := Nat.mul_pos (by omega) hN
  have hlen := (encryptGlweList_block hN hk ho hm h).choose_spec.2.1
  simp only [encryptGlweList] at h
  split at h
  · cases h
  · rename_i cs g1 e1
    simp only [Option.some.injEq, Prod.mk.injEq] at h
    obtain ⟨rfl, rfl⟩ := h
    have hlo := chunks_length _ hkN n out ho
    have hlm := chunks_length N hN n msgs hm
    obtain ⟨a1, a2, a3⟩ := listAux_masks _ _ _ _ _ (chunks_len _ hkN n out ho) (by rw [hlo, hlm]) hb e1
    obtain ⟨_, _, _, k3, _⟩ := encryptListAux_spec hN hk _ _ _ _ _
      (chunks_len _ hkN n out ho) (chunks_len N hN n msgs hm) (by rw [hlo, hlm]) e1
    rw [hlo] at a1 a2
    refine ⟨fun t i ht hi => ?_, by rw [a1]; simp only [mB, Nat.mul_assoc]⟩
    have hget : cs[t]? = some (cs.getD t []) := by
      rw [List.getD_eq_getElem?_getD, List.getElem?_eq_getElem (by omega)]; rfl
    rw [block_flatten _ hkN cs k3 t _ hget, take_masks (a3 t _ hget) i hi]
    congr 1
    simp only [mB]
    rw [Nat.add_mul _ i, ← Nat.mul_assoc k, Nat.mul_assoc t, Nat.add_assoc]

/-- C19 (GLWE): a child with exactly the mask bytes reserved for a GLWE ciphertext never runs out of mask
bytes, and is left with none; with fewer bytes the encryption panics. -/
theorem C19_glwe (f : GaussianFn w) (N k : Nat) (key out msg : List (BitVec w)) (g : EncGen)
    (ho : CtFits N k out) :
    (g.mask.bound = g.mask.pos + maskBytesPerGlwe w k N →
      (∀ e gn, randomNoiseTensor f N g.noise = some (e, gn) → ∃ ct, encryptGlwe f key N out msg g =
        some (ct, { mask := { g.mask with pos := g.mask.bound }, noise := gn })) ∧
      (∀ ct g', encryptGlwe f key N out msg g = some (ct, g') → g'.mask.pos = g.mask.bound)) ∧
    (g.mask.pos ≤ g.mask.bound → g.mask.bound < g.mask.pos + maskBytesPerGlwe w k N →
      encryptGlwe f key N out msg g = none) := by
  have hm : maskBytesPerGlwe w k N = mB w k N := rfl
  have hm2 : k * N * (w / 8) = mB w k N := Nat.mul_assoc _ _ _
  rw [hm]
  refine ⟨fun hb => ⟨fun e gn hn => ?_, fun ct g' h => ?_⟩, fun hp hb => ?_⟩
  · obtain ⟨ct, h⟩ := encryptGlwe_ok f key out msg N k g ho (by rw [hm2]; omega) e gn hn
    refine ⟨ct, ?_⟩
    rw [h, hm2]
    simp only [Src.skip, ← hb]
  · obtain ⟨_, _, h3⟩ := Glwe.encrypt_mask ho (by omega) h
    rw [h3, hb]; rfl
  · by_contra hc
    obtain ⟨⟨ct, g'⟩, hx⟩ := Option.ne_none_iff_exists'.1 hc
    obtain ⟨_, h2, _⟩ := Glwe.encrypt_mask ho hp hx
    omega

/-! ### Bootstrap keys -/

/-- C19 (bootstrap keys): the masks of all the GLWE ciphertexts of a generated bootstrap key are
consecutive words of the mask stream, which ends just after the last. -/
theorem C19_bsk_masks (f : GaussianFn w) (N k b level : Nat) (hN : 0 < N) (hL : 0 < level)
    (lweKey key out bsk : List (BitVec w)) (g g' : EncGen) (hk : KeyFits N k key)
    (ho : out.length = lweKey.length * (level * ((k + 1) * ((k + 1) * N))))
    (h : fillBsk f lweKey key N k b level out g = some (bsk, g')) :
    MasksFrom N k (lweKey.length * (level * (k + 1))) g.mask bsk ∧
    g'.mask = g.mask.skip (lweKey.length * (level * (k + 1)) * (k * N) * (w / 8)) := by
  have hkN : 0 < (k + 1) * N := Nat.mul_pos (by omega) hN
  have hsz : 0 < level * ((k + 1) * ((k + 1) * N)) := Nat.mul_pos hL (Nat.mul_pos (by omega) hkN)
  have hLk : 0 < level * (k + 1) := Nat.mul_pos hL (by omega)
  obtain ⟨_, hg', hl, hi⟩ := (bskFill_iff (fun _ => encryptGgsw f key N k b) _ hsz lweKey N k level _
    (List.Perm.refl _) out ho g g' bsk (by
      intro i c s g1 c' g2 hc hx
      rw [encryptGgsw_eq_par f key N k b level hN c s g1 hc] at hx
      exact ((ggswFill_iff (rowEnc f key N) _ hkN key N k b level hN (keeps_rowEnc f key N k hN hk) s g1 g2 _ _
        (List.Perm.refl _) (fun _ _ => List.Perm.refl _) c c' hc).1 hx).2.2.1)).1 h
  refine ⟨fun t i ht hik => ?_, by rw [hg']; simp only [mB, Nat.mul_assoc]⟩
  have hq : t / (level * (k + 1)) < lweKey.length := (Nat.div_lt_iff_lt_mul hLk).2 ht
  have hr : t % (level * (k + 1)) < level * (k + 1) := Nat.mod_lt _ hLk
  have ht' : t = t / (level * (k + 1)) * (level * (k + 1)) + t % (level * (k + 1)) := by
    rw [Nat.mul_comm]; exact (Nat.div_add_mod t _).symm
  obtain ⟨gi, hx⟩ := hi _ hq
  have hm := (C19_ggsw_masks f N k b level hN key _ _ _ _ _ hk (by simp) hx).2 _ i hr hik
  have hblk := block_block ((k + 1) * N) (level * (k + 1)) bsk (t / (level * (k + 1))) _ hr
  rw [Nat.mul_assoc level (k + 1) ((k + 1) * N), ← ht'] at hblk
  rw [hblk] at hm
  rw [hm]
  simp only [EncGen.slice]
  congr 1
  conv_rhs => rw [ht']
  simp only [mB]
  ring

/-- C19 (bootstrap keys): with the bytes of the fork available, only drawing a noise can fail. -/
theorem C19_bsk_only_noise_fails (f : GaussianFn w) (N k b level : Nat) (hN : 0 < N) (hL : 0 < level)
    (lweKey key out : List (BitVec w)) (g : EncGen) (hk : KeyFits N k key)
    (ho : out.length = lweKey.length * (level * ((k + 1) * ((k + 1) * N))))
    (hn : 0 < lweKey.length) (hm : 0 < k * (N * (w / 8)))
    (h1 : g.mask.pos + lweKey.length * (level * ((k + 1) * (k * (N * (w / 8))))) ≤ g.mask.bound)
    (h2 : g.noise.pos + lweKey.length * (level * ((k + 1) * (N * 256))) ≤ g.noise.bound)
    (h : fillBsk f lweKey key N k b level out g = none) :
    ∃ t, t < lweKey.length * (level * (k + 1)) ∧ randomNoiseTensor f N { g.noise with
      pos := g.noise.pos + t * (N * 256), bound := g.noise.pos + (t + 1) * (N * 256) } = none := by
  have hkN : 0 < (k + 1) * N := Nat.mul_pos (by omega) hN
  have hsz : 0 < level * ((k + 1) * ((k + 1) * N)) := Nat.mul_pos hL (Nat.mul_pos (by omega) hkN)
  have hkeep : ∀ (i : Nat) (c : List (BitVec w)) s g1 c' g2, c.length = level * ((k + 1) * ((k + 1) * N)) →
      encryptGgsw f key N k b c s g1 = some (c', g2) → c'.length = level * ((k + 1) * ((k + 1) * N)) := by
    intro i c s g1 c' g2 hc hx
    rw [encryptGgsw_eq_par f key N k b level hN c s g1 hc] at hx
    exact ((ggswFill_iff (rowEnc f key N) _ hkN key N k b level hN (keeps_rowEnc f key N k hN hk) s g1 g2 _ _
      (List.Perm.refl _) (fun _ _ => List.Perm.refl _) c c' hc).1 hx).2.2.1
  by_contra hc
  obtain ⟨bsk, hbl, hb⟩ := exists_blocks lweKey.length _ hsz
    (fun i c => ∃ gi, encryptGgsw f key N k b (List.replicate (level * ((k + 1) * ((k + 1) * N))) 0#w)
      (lweKey.getD i 0) (g.slice (level * ((k + 1) * mB w k N)) (level * ((k + 1) * nB N)) i) = some (c, gi))
    (fun i hi => by
      cases hx : encryptGgsw f key N k b (List.replicate (level * ((k + 1) * ((k + 1) * N))) 0#w)
          (lweKey.getD i 0) (g.slice (level * ((k + 1) * mB w k N)) (level * ((k + 1) * nB N)) i) with
      | some x =>
        exact ⟨x.1, hkeep 0 _ _ _ _ _ (by simp) hx, x.2, rfl⟩
      | none =>
        exfalso
        obtain ⟨t, ht, hno⟩ := C19_ggsw_only_noise_fails f N k b level hN key _ _ _ hk (by simp) hL hm
          (by simp only [EncGen.slice, mB]; rw [Nat.add_mul i 1, Nat.one_mul]; omega)
          (by simp only [EncGen.slice, nB]; rw [Nat.add_mul i 1, Nat.one_mul]; omega) hx
        apply hc
        refine ⟨i * (level * (k + 1)) + t, ?_, ?_⟩
        · calc i * (level * (k + 1)) + t < i * (level * (k + 1)) + level * (k + 1) := by omega
            _ = (i + 1) * (level * (k + 1)) := by rw [Nat.add_mul, Nat.one_mul]
            _ ≤ _ := Nat.mul_le_mul_right _ hi
        · rw [← hno]
          simp only [EncGen.slice, nB]
          congr 2
          · ring
          · ring)
  have := (bskFill_iff (fun _ => encryptGgsw f key N k b) _ hsz lweKey N k level _
    (List.Perm.refl _) out ho g _ bsk (fun i => hkeep i)).2
    ⟨⟨hn, Nat.mul_pos hL (Nat.mul_pos (by omega) hm),
      Nat.mul_pos hL (Nat.mul_pos (by omega) (by unfold nB; omega)), h1, h2⟩, rfl, hbl, hb⟩
  rw [fillBsk] at h
  rw [this] at h
  cases h

/-! ### Private functional keyswitch keys -/

theorem privateJob_masks {f : GaussianFn w} {s key P : List (BitVec w)} {b l N k : Nat} (hN : 0 < N)
    (hk : KeyFits N k key) {fone : BitVec w} (hP : P.length = N) {g : EncGen} {gens : List EncGen}
    {i : Nat} (hi : i < s.length + 1) (hg : gens[i]? = some g) (hb : g.mask.pos ≤ g.mask.bound)
    {c c' : List (BitVec w)} (hc : c.length = l * ((k + 1) * N))
    (hj : privateJob f key b l N k fone P (s ++ [BitVec.allOnes w]) gens i c = some c') :
    c'.length = l * ((k + 1) * N) ∧ MasksFrom N k l g.mask c' := by
  have e1 : ∃ x, (s ++ [BitVec.allOnes w])[i]? = some x :=
    ⟨_, List.getElem?_eq_getElem (by simp; omega)⟩
  obtain ⟨x, e1⟩ := e1
  simp only [privateJob, e1, hg] at hj
  obtain ⟨⟨ct, gi'⟩, he, rfl⟩ := Option.map_eq_some_iff.1 hj
  obtain ⟨m1, _⟩ := privateMessages_spec b l N hN fone P hP x
  exact ⟨(encryptGlweList_block hN hk hc m1 he).choose_spec.2.1,
    (C19_glwe_list_masks f N k l hN key c _ _ g gi' hk hc m1 hb he).1⟩

/-- Consecutive parts of consecutive streams. -/
theorem masks_blocks {N k m n : Nat} (hn : 0 < n) {g : Src} {cts : List (BitVec w)}
    (h : ∀ q, q < m → MasksFrom N k n { g with
      pos := g.pos + q * (n * (k * N * (w / 8))), bound := g.pos + (q + 1) * (n * (k * N * (w / 8))) } (block (n * ((k + 1) * N)) cts q)) :
    MasksFrom N k (m * n) g cts := by
  intro t i ht hi
  have hq : t / n < m := (Nat.div_lt_iff_lt_mul hn).2 ht
  have hr : t % n < n := Nat.mod_lt _ hn
  have ht' : t = t / n * n + t % n := by rw [Nat.mul_comm]; exact (Nat.div_add_mod t _).symm
  have := h _ hq (t % n) i hr hi
  rw [block_block _ _ _ _ _ hr, ← ht'] at this
  rw [this]
  dsimp only
  congr 1
  conv_rhs => rw [ht']
  ring

/-- C19 (private functional keyswitch keys), for the sequential and the parallel generation: the masks of
all the GLWE ciphertexts of the key are consecutive words of the mask stream, which ends just after the
last. -/
theorem C19_private_key_masks (f : GaussianFn w) (N k b l : Nat) (hN : 0 < N) (hl : 0 < l)
    (s key P ksk ksk' : List (BitVec w)) (fone : BitVec w) (hP : P.length = N) (g g' : EncGen) (hk : KeyFits N k key)
    (hs : ksk.length = (s.length + 1) * (l * ((k + 1) * N))) (sched : List Nat)
    (hp : sched.Perm (List.range (s.length + 1)))
    (h : parFillPrivateKey f s key b l N k fone P sched ksk g = some (ksk', g')) :
    MasksFrom N k ((s.length + 1) * l) g.mask ksk' ∧
    g'.mask = g.mask.skip ((s.length + 1) * l * (k * N) * (w / 8)) := by
  have hkN : 0 < (k + 1) * N := Nat.mul_pos (by omega) hN
  have hpos : 0 < l * ((k + 1) * N) := Nat.mul_pos hl hkN
  have hskip := (parFillPrivateKey_spec hN hl hk hP hs sched hp h).1
  refine ⟨?_, by rw [hskip]; simp only [Nat.mul_assoc]⟩
  simp only [parFillPrivateKey, EncGen.forkPfpkskToChunks] at h
  split at h
  · cases h
  · rename_i gens g1 hf
    obtain ⟨-, -, -, -, -, hg1, hgens⟩ := encFork_ok hf
    have hmb : maskBytesPerPfpkskChunk w l (k + 1) N = l * (k * N * (w / 8)) := by
      simp only [maskBytesPerPfpkskChunk, maskBytesPerGlwe, maskBytesPerPolynomial, maskBytesPerCoef]
      rw [Nat.add_sub_cancel]; ring
    rw [hmb] at hgens
    split at h
    · cases h
    · rename_i blks hpar
      simp only [Option.some.injEq, Prod.mk.injEq] at h
      obtain ⟨rfl, rfl⟩ := h
      have hget : ∀ i, i < s.length + 1 → ∃ gi, gens[i]? = some gi ∧
          gi.mask = { g.mask with pos := g.mask.pos + i * (l * (k * N * (w / 8))),
                                  bound := g.mask.pos + (i + 1) * (l * (k * N * (w / 8))) } := by
        intro i hi
        refine ⟨_, by rw [hgens, List.getElem?_map, List.getElem?_range hi]; rfl, rfl⟩
      have hjob : ∀ i c c', i < s.length + 1 → c.length = l * ((k + 1) * N) →
          privateJob f key b l N k fone P (s ++ [BitVec.allOnes w]) gens i c = some c' →
          c'.length = l * ((k + 1) * N) ∧ MasksFrom N k l { g.mask with
            pos := g.mask.pos + i * (l * (k * N * (w / 8))),
            bound := g.mask.pos + (i + 1) * (l * (k * N * (w / 8))) } c' := by
        intro i c c' hi hc hj
        obtain ⟨gi, e1, e2⟩ := hget i hi
        rw [← e2]
        refine privateJob_masks hN hk hP hi e1 ?_ hc hj
        rw [e2]
        exact Nat.add_le_add_left (Nat.mul_le_mul_right _ (by omega)) _
      have hres := (parFor_chunks _ (s.length + 1) _ hpos ksk hs sched hp
        (fun i c c' hi hc hj => (hjob i c c' hi hc hj).1) blks.flatten).1 (by rw [hpar]; rfl)
      exact masks_blocks hl fun q hq =>
        (hjob q _ _ hq (block_len _ _ q ksk hs hq) (hres.2 q hq)).2

/-- C19 (private functional keyswitch keys): with the bytes of the fork available, only drawing a noise
can fail. -/
theorem C19_private_key_only_noise_fails (f : GaussianFn w) (N k b l : Nat) (hN : 0 < N) (hl : 0 < l)
    (s key P ksk : List (BitVec w)) (fone : BitVec w) (hP : P.length = N) (g : EncGen) (hk : KeyFits N k key)
    (hs : ksk.length = (s.length + 1) * (l * ((k + 1) * N))) (sched : List Nat)
    (hp : sched.Perm (List.range (s.length + 1))) (hm : 0 < k * N * (w / 8))
    (h1 : g.mask.pos + (s.length + 1) * (l * (k * N * (w / 8))) ≤ g.mask.bound)
    (h2 : g.noise.pos + (s.length + 1) * (l * (N * 256)) ≤ g.noise.bound)
    (h : parFillPrivateKey f s key b l N k fone P sched ksk g = none) :
    ∃ i, i < s.length + 1 ∧ rep l (randomNoiseTensor f N) { g.noise with
      pos := g.noise.pos + i * (l * (N * 256)), bound := g.noise.pos + (i + 1) * (l * (N * 256)) } = none := by
  have hkN : 0 < (k + 1) * N := Nat.mul_pos (by omega) hN
  have hpos : 0 < l * ((k + 1) * N) := Nat.mul_pos hl hkN
  have hmb : maskBytesPerPfpkskChunk w l (k + 1) N = l * (k * N * (w / 8)) := by
    simp only [maskBytesPerPfpkskChunk, maskBytesPerGlwe, maskBytesPerPolynomial, maskBytesPerCoef]
    rw [Nat.add_sub_cancel]; ring
  have hnb : noiseBytesPerPfpkskChunk l N = l * (N * 256) := by
    simp only [noiseBytesPerPfpkskChunk, noiseBytesPerGlwe, noiseBytesPerPolynomial, noiseBytesPerCoef]
  by_contra hc
  have hfork := encFork_eq g (s.length + 1) (l * (k * N * (w / 8))) (l * (N * 256))
    ⟨by omega, Nat.mul_pos hl hm, Nat.mul_pos hl (by omega), h1, h2⟩
  simp only [parFillPrivateKey, EncGen.forkPfpkskToChunks, hmb, hnb, hfork] at h
  have hget : ∀ i, i < s.length + 1 → ((List.range (s.length + 1)).map
      (g.slice (l * (k * N * (w / 8))) (l * (N * 256))))[i]? =
      some (g.slice (l * (k * N * (w / 8))) (l * (N * 256)) i) := by
    intro i hi; simp [hi]
  have hall : ∀ i, i < s.length + 1 → ∃ c', c'.length = l * ((k + 1) * N) ∧
      privateJob f key b l N k fone P (s ++ [BitVec.allOnes w]) ((List.range (s.length + 1)).map
      (g.slice (l * (k * N * (w / 8))) (l * (N * 256)))) i (block (l * ((k + 1) * N)) ksk i) = some c' := by
    intro i hi
    have hbl := block_len _ _ i ksk hs hi
    obtain ⟨x, e1⟩ : ∃ x, (s ++ [BitVec.allOnes w])[i]? = some x :=
      ⟨_, List.getElem?_eq_getElem (by simp; omega)⟩
    obtain ⟨m1, _⟩ := privateMessages_spec b l N hN fone P hP x
    have hno : ∃ es gn, rep l (randomNoiseTensor f N) (g.slice (l * (k * N * (w / 8))) (l * (N * 256)) i).noise =
        some (es, gn) := by
      cases hx : rep l (randomNoiseTensor f N) (g.slice (l * (k * N * (w / 8))) (l * (N * 256)) i).noise with
      | none => exact absurd ⟨i, hi, hx⟩ hc
      | some y => exact ⟨y.1, y.2, rfl⟩
    obtain ⟨es, gn, hno⟩ := hno
    have hlo := chunks_length _ hkN l _ hbl
    have hlm := chunks_length N hN l _ m1
    obtain ⟨cts, g', hcts⟩ := listAux_ok (key := key) (chunks ((k + 1) * N) (block (l * ((k + 1) * N)) ksk i))
      (chunks N (privateMessages b l N fone P x)) (g.slice (l * (k * N * (w / 8))) (l * (N * 256)) i) es gn
      (chunks_len _ hkN l _ hbl) (by rw [hlo, hlm]) (by
        rw [hlo]; simp only [EncGen.slice]; rw [Nat.add_mul i 1, Nat.one_mul]; omega) (by rw [hlo]; exact hno)
    have hlist : encryptGlweList f key N k (block (l * ((k + 1) * N)) ksk i)
        (privateMessages b l N fone P x) (g.slice (l * (k * N * (w / 8))) (l * (N * 256)) i) =
        some (cts.flatten, g') := by simp only [encryptGlweList, hcts]
    refine ⟨cts.flatten, (encryptGlweList_block hN hk hbl m1 hlist).choose_spec.2.1, ?_⟩
    simp only [privateJob, e1, hget i hi, hlist, Option.map_some]
  have hkeep : ∀ i c c', i < s.length + 1 → c.length = l * ((k + 1) * N) →
      privateJob f key b l N k fone P (s ++ [BitVec.allOnes w]) ((List.range (s.length + 1)).map
      (g.slice (l * (k * N * (w / 8))) (l * (N * 256)))) i c = some c' → c'.length = l * ((k + 1) * N) := by
    intro i c c' hi hc hj
    exact (privateJob_masks hN hk hP hi (hget i hi) (by
      simp only [EncGen.slice]
      exact Nat.add_le_add_left (Nat.mul_le_mul_right _ (by omega)) _) hc hj).1
  obtain ⟨res, r1, r2⟩ := exists_blocks (s.length + 1) _ hpos (fun i c' =>
    privateJob f key b l N k fone P (s ++ [BitVec.allOnes w]) ((List.range (s.length + 1)).map
      (g.slice (l * (k * N * (w / 8))) (l * (N * 256)))) i (block (l * ((k + 1) * N)) ksk i) = some c') hall
  have := (parFor_chunks _ (s.length + 1) _ hpos ksk hs sched hp hkeep res).2 ⟨r1, r2⟩
  obtain ⟨ms, e1, _⟩ := Option.map_eq_some_iff.1 this
  rw [e1] at h
  cases h

/-! ### Keys of the circuit bootstrap -/

/-- C19 (keys of the circuit bootstrap), for every schedule: the masks of all the GLWE ciphertexts of the
`k + 1` keys are consecutive words of the mask stream, which ends just after the last. -/
theorem C19_cbs_masks (bld : Csprng.Build) (f : GaussianFn w) (N k b l : Nat) (hN : 0 < N) (hl : 0 < l)
    (s key ksks ksks' : List (BitVec w)) (hk : KeyFits N k key) (g g' : EncGen)
    (hs : ksks.length = (k + 1) * ((s.length + 1) * (l * ((k + 1) * N)))) (sched : List Nat)
    (hp : sched.Perm (List.range (k + 1))) (inner : Nat → List Nat)
    (hi : ∀ i, i < k + 1 → (inner i).Perm (List.range (s.length + 1)))
    (h : parFillCbsKeys bld f s key b l N k (k + 1) sched inner ksks g = some (ksks', g')) :
    MasksFrom N k ((k + 1) * ((s.length + 1) * l)) g.mask ksks' ∧
    g'.mask = g.mask.skip ((k + 1) * ((s.length + 1) * l) * (k * N) * (w / 8)) := by
  have hkN : 0 < (k + 1) * N := Nat.mul_pos (by omega) hN
  have hpos : 0 < (s.length + 1) * (l * ((k + 1) * N)) := Nat.mul_pos (by omega) (Nat.mul_pos hl hkN)
  have hsl : 0 < (s.length + 1) * l := Nat.mul_pos (by omega) hl
  rw [parFillCbsKeys, if_neg (by simp)] at h
  simp only [EncGen.forkCbsPfpkskToPfpksk] at h
  split at h
  · cases h
  · rename_i gens g1 hf1
    obtain ⟨-, -, -, -, -, hg1, hgens⟩ := encFork_ok hf1
    have hmb : maskBytesPerPfpksk w l (k + 1) N (s.length + 1) =
        (s.length + 1) * l * (k * N * (w / 8)) := by
      simp only [maskBytesPerPfpksk, maskBytesPerPfpkskChunk, maskBytesPerGlwe, maskBytesPerPolynomial,
        maskBytesPerCoef]
      rw [Nat.add_sub_cancel]; ring
    rw [hmb] at hg1 hgens
    split at h
    · cases h
    · rename_i keys hpar
      simp only [Option.some.injEq, Prod.mk.injEq] at h
      obtain ⟨rfl, rfl⟩ := h
      refine ⟨?_, by rw [hg1]; simp only [Nat.mul_assoc]⟩
      have hjob : ∀ i c c', i < k + 1 → c.length = (s.length + 1) * (l * ((k + 1) * N)) →
          cbsJob f s key b l N k inner gens i c = some c' →
          c'.length = (s.length + 1) * (l * ((k + 1) * N)) ∧ MasksFrom N k ((s.length + 1) * l) { g.mask with
            pos := g.mask.pos + i * ((s.length + 1) * l * (k * N * (w / 8))),
            bound := g.mask.pos + (i + 1) * ((s.length + 1) * l * (k * N * (w / 8))) } c' := by
        intro i c c' hik hc hj
        obtain ⟨P, p1, p2, _⟩ := cbsPolynomials_get hN hk i (by omega)
        obtain ⟨gi, e2, e3⟩ : ∃ gi, gens[i]? = some gi ∧ gi.mask = { g.mask with
            pos := g.mask.pos + i * ((s.length + 1) * l * (k * N * (w / 8))),
            bound := g.mask.pos + (i + 1) * ((s.length + 1) * l * (k * N * (w / 8))) } := by
          refine ⟨_, by rw [hgens, List.getElem?_map, List.getElem?_range hik]; rfl, rfl⟩
        simp only [cbsJob, p1, e2] at hj
        obtain ⟨⟨ct, gi'⟩, he, rfl⟩ := Option.map_eq_some_iff.1 hj
        rw [← e3]
        exact ⟨(parFillPrivateKey_spec hN hl hk p2 hc (inner i) (hi i hik) he).2.2.choose_spec.2.2.1,
          (C19_private_key_masks f N k b l hN hl s key P c ct _ p2 gi gi' hk hc (inner i) (hi i hik) he).1⟩
      have hres := (parFor_chunks _ (k + 1) _ hpos ksks hs sched hp
        (fun i c c' hi hc hj => (hjob i c c' hi hc hj).1) keys.flatten).1 (by rw [hpar]; rfl)
      apply masks_blocks hsl
      intro q hq
      rw [Nat.mul_assoc (s.length + 1) l ((k + 1) * N)]
      exact (hjob q _ _ hq (block_len _ _ q ksks hs hq) (hres.2 q hq)).2

/-- The hypotheses are met: keys are generated from generators with exactly the bytes of the forks. -/
example :
    let f : GaussianFn 16 := { accept := fun _ _ => true, value := fun _ _ => (1#16, 1#16) }
    let t : Nat → BitVec 8 := fun p => BitVec.ofNat 8 (p * p + 7)
    (fillCbsKeys .debug f [1#16, 0#16] [1#16, 1#16] 4 2 2 1 2 (List.replicate 48 0#16)
      { mask := ⟨t, 1, 1 + 48⟩, noise := ⟨t, 1, 1 + 6144⟩ }).isSome ∧
    (fillCbsKeys .debug f [1#16, 0#16] [1#16, 1#16] 4 2 2 1 2 (List.replicate 48 0#16)
      { mask := ⟨t, 1, 48⟩, noise := ⟨t, 1, 1 + 6144⟩ }).isNone ∧
    (fillBsk f [1#16, 0#16] [1#16, 1#16] 2 1 4 2 (List.replicate 32 0#16)
      { mask := ⟨t, 1, 1 + 32⟩, noise := ⟨t, 1, 1 + 4096⟩ }).isSome ∧
    (fillPrivateKey f [1#16, 0#16] [1#16, 1#16] 4 2 2 1 1#16 [1#16, 2#16] (List.replicate 24 0#16)
      { mask := ⟨t, 1, 1 + 24⟩, noise := ⟨t, 1, 1 + 3072⟩ }).isSome := by decide +kernel

end Verif.Pks
