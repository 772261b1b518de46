import Verif.Glwe.Props
import Verif.Glwe.Props2
/-
Seeded GGSW ciphertexts and bootstrap keys (C17), mask budgets (C19).
-/
set_option linter.unusedSectionVars false
namespace Verif.Glwe
open Verif.Random Verif.Poly

variable {w : Nat}

theorem row_index {k level : Nat} {j r : Nat} (hj : j < level) (hr : r < k + 1) :
    j * (k + 1) + r < level * (k + 1) :=
  calc j * (k + 1) + r < j * (k + 1) + (k + 1) := by omega
    _ = (j + 1) * (k + 1) := by rw [Nat.add_mul j, Nat.one_mul]
    _ ≤ level * (k + 1) := Nat.mul_le_mul_right _ hj

theorem index_split {k level t : Nat} (ht : t < level * (k + 1)) :
    ∃ j r, j < level ∧ r < k + 1 ∧ t = j * (k + 1) + r :=
  ⟨t / (k + 1), t % (k + 1), (Nat.div_lt_iff_lt_mul (by omega)).2 ht, Nat.mod_lt _ (by omega), by
    rw [Nat.mul_comm]; exact (Nat.div_add_mod t (k + 1)).symm⟩

/-- The mask of a GLWE encryption is the next `k N` words of the mask stream. -/
theorem encrypt_mask {f : GaussianFn w} {key out msg ct : List (BitVec w)} {N k : Nat} {g g' : EncGen}
    (ho : CtFits N k out) (hb : g.mask.pos ≤ g.mask.bound)
    (h : encryptGlwe f key N out msg g = some (ct, g')) :
    ct.take (k * N) = maskWords w g.mask g.mask.pos (k * N) ∧
    g.mask.pos + mB w k N ≤ g.mask.bound ∧ g'.mask = g.mask.skip (mB w k N) := by
  obtain ⟨mask, e, _, h2, h3, rfl⟩ := encryptGlwe_eq h
  have hl : out.length - N = k * N := by rw [ho, Nat.add_mul, Nat.one_mul]; omega
  rw [hl] at h2 h3
  rw [List.take_left' h3]
  rw [rep_uniform _ _ _ hb] at h2
  have hmul : k * N * (w / 8) = mB w k N := Nat.mul_assoc _ _ _
  rw [hmul] at h2
  split at h2
  · simp only [Option.some.injEq, Prod.mk.injEq] at h2
    exact ⟨h2.1.symm, by assumption, h2.2.symm⟩
  · cases h2

/-! ### C17 -/

/-- C17 (GGSW): the seeded encryption followed by the expansion, from a mask generator in the same
state, is the standard encryption: same words, same panics, same final generator states. -/
theorem C17_ggsw (f : GaussianFn w) (N k b level : Nat) (hN : 0 < N) (key out bodies : List (BitVec w))
    (msg : BitVec w) (g : EncGen) (hk : KeyFits N k key)
    (ho : out.length = level * ((k + 1) * ((k + 1) * N))) (hb : bodies.length = level * ((k + 1) * N)) :
    (∀ bs g', encryptSeededGgsw f key N k b bodies msg g = some (bs, g') →
      ∃ ct, (∀ out', out'.length = level * ((k + 1) * ((k + 1) * N)) →
          expandGgsw N k out' bs g.mask = some (ct, g'.mask)) ∧
        encryptGgsw f key N k b out msg g = some (ct, g')) ∧
    (encryptSeededGgsw f key N k b bodies msg g = none → encryptGgsw f key N k b out msg g = none) := by
  have hkN : 0 < (k + 1) * N := Nat.mul_pos (by omega) hN
  have hstd := fun res g' => ggswFill_iff (rowEnc f key N) _ hkN key N k b level hN
    (keeps_rowEnc f key N k hN hk) msg g g' _ _ (List.Perm.refl _) (fun _ _ => List.Perm.refl _) out res ho
  have hsd := fun res g' => ggswFill_iff (rowEncSeeded f key N) _ hN key N k b level hN
    (keeps_rowEncSeeded f key N k hN hk) msg g g' _ _ (List.Perm.refl _) (fun _ _ => List.Perm.refl _)
    bodies res hb
  rw [encryptGgsw_eq_par f key N k b level hN out msg g ho,
    encryptSeededGgsw_eq_par f key N k b level hN bodies msg g hb]
  have hfit : ∀ t, t < level * (k + 1) → CtFits N k (block ((k + 1) * N) out t) := fun t ht =>
    block_len _ _ _ out (by rw [ho, Nat.mul_assoc]) ht
  constructor
  · intro bs g' h
    obtain ⟨room, hg', hl, hrow⟩ := (hsd bs g').1 h
    have hpos : g.mask.pos ≤ g.mask.bound := by have := room.2.2.1; omega
    have hroom : g.mask.pos + level * (k + 1) * mB w k N ≤ g.mask.bound := by
      rw [Nat.mul_assoc]; exact room.2.2.1
    obtain ⟨ct, hctl, hct⟩ := exists_blocks (level * (k + 1)) ((k + 1) * N) hkN
      (fun t c => c = maskWords w g.mask (g.mask.pos + t * mB w k N) (k * N) ++ block N bs t)
      (fun t ht => ⟨_, by
        rw [List.length_append, maskWords, List.length_map, List.length_range,
          block_len N _ t bs (by rw [hl, Nat.mul_assoc]) ht, Nat.add_mul, Nat.one_mul], rfl⟩)
    refine ⟨ct, fun out' ho' => ?_, (hstd ct g').2 ⟨room, hg', by rw [hctl, Nat.mul_assoc], ?_⟩⟩
    · rw [expandGgsw_eq_list N k level hN out' bs g.mask ho' hl,
        expandList_iff N k (level * (k + 1)) hN out' bs g.mask _ (by rw [ho', Nat.mul_assoc])
          (by rw [hl, Nat.mul_assoc]) hpos]
      refine ⟨hroom, ?_, hctl, hct⟩
      rw [hg', Nat.mul_assoc]
    · intro j hj r hr
      have ht := row_index hj hr
      obtain ⟨⟨body, gi⟩, hx, e1⟩ := Option.map_eq_some_iff.1 (hrow j hj r hr)
      simp only at e1
      subst e1
      obtain ⟨mask, e2, e3⟩ := (C17_glwe f N k key (block ((k + 1) * N) out (j * (k + 1) + r)) _ _ hk
        (hfit _ ht)).1 _ _ hx
      rw [rowEnc, e3, hct _ ht]
      simp only [Option.map_some, Option.some.injEq]
      congr 1
      obtain ⟨m1, _, _⟩ := encrypt_mask (hfit _ ht) (by
        simp only [EncGen.slice]; rw [Nat.add_mul _ 1, Nat.one_mul]; omega) e3
      have hml : mask.length = k * N := by
        obtain ⟨mk, e, _, h2, h3, h4⟩ := encryptGlwe_eq e3
        have hle : mask.length = mk.length := by
          have hl1 := congrArg List.length h4
          have hbl := block_len N _ (j * (k + 1) + r) bs (by rw [hl, Nat.mul_assoc]) ht
          have hmkl : mk.length = k * N := by
            rw [h3, hfit _ ht, Nat.add_mul, Nat.one_mul]; omega
          obtain ⟨a1, _⟩ := addMultisum_chunks N k hN e mk key (noiseTensor_length (by assumption)) hmkl hk
          rw [List.length_append, List.length_append, Poly.add, zipUpdate_length, a1, hbl] at hl1
          omega
        rw [hle, h3, hfit _ ht, Nat.add_mul, Nat.one_mul]; omega
      rw [List.take_left' hml] at m1
      exact m1
  · intro h
    cases hs : parEncryptGgsw f key N k b (List.range level) (fun _ => List.range (k + 1)) out msg g with
    | none => rfl
    | some x =>
      obtain ⟨ct, g'⟩ := x
      obtain ⟨room, hg', hl, hrow⟩ := (hstd ct g').1 hs
      obtain ⟨bs, hbl, hbs⟩ := exists_blocks (level * (k + 1)) N hN
        (fun t c => ∀ j r, j < level → r < k + 1 → t = j * (k + 1) + r →
          rowEncSeeded f key N (rowPlaintext key N k (-msg * gadget w b (j + 1)) r)
            (g.slice (mB w k N) (nB N) t) (block N bodies t) = some c)
        (fun t ht => by
          obtain ⟨j, r, hj, hr, e⟩ := index_split ht
          have hx := hrow j hj r hr
          rw [← e] at hx
          cases hsd' : encryptSeededGlwe f key N (rowPlaintext key N k (-msg * gadget w b (j + 1)) r)
            (g.slice (mB w k N) (nB N) t) with
          | none =>
            have := (C17_glwe f N k key (block ((k + 1) * N) out t) _ _ hk (hfit _ ht)).2 hsd'
            rw [rowEnc, this] at hx; cases hx
          | some y =>
            have e0 : rowEncSeeded f key N (rowPlaintext key N k (-msg * gadget w b (j + 1)) r)
                (g.slice (mB w k N) (nB N) t) (block N bodies t) = some y.1 := by
              rw [rowEncSeeded, hsd']; rfl
            refine ⟨y.1, keeps_rowEncSeeded f key N k hN hk _ _ _ _ _
              (block_len N _ t bodies (by rw [hb, Nat.mul_assoc]) ht) e0, ?_⟩
            intro j' r' hj' hr' e'
            have hjj : j' = j := by
              have h1 : t / (k + 1) = j := by
                rw [e, Nat.mul_comm, Nat.mul_add_div (by omega), Nat.div_eq_of_lt hr, Nat.add_zero]
              have h2 : t / (k + 1) = j' := by
                rw [e', Nat.mul_comm, Nat.mul_add_div (by omega), Nat.div_eq_of_lt hr', Nat.add_zero]
              omega
            subst hjj
            have hrr : r' = r := by omega
            subst hrr
            exact e0)
      have := (hsd bs g').2 ⟨room, hg', by rw [hbl, Nat.mul_assoc], fun j hj r hr =>
        hbs _ (row_index hj hr) j r hj hr rfl⟩
      rw [parEncryptSeededGgsw] at h
      rw [h] at this; cases this

/-- C17 (bootstrap keys): the seeded generation followed by the expansion from a mask generator in the
same state is the standard generation. -/
theorem C17_bootstrap_key (f : GaussianFn w) (N k b level : Nat) (hN : 0 < N) (hL : 0 < level)
    (lweKey key out bodies : List (BitVec w)) (g : EncGen) (hk : KeyFits N k key)
    (ho : out.length = lweKey.length * (level * ((k + 1) * ((k + 1) * N))))
    (hb : bodies.length = lweKey.length * (level * ((k + 1) * N))) :
    (∀ bs g', fillSeededBsk f lweKey key N k b level bodies g = some (bs, g') →
      ∃ bsk, (∀ out', out'.length = lweKey.length * (level * ((k + 1) * ((k + 1) * N))) →
          expandBsk N k level out' bs g.mask = some (bsk, g'.mask)) ∧
        fillBsk f lweKey key N k b level out g = some (bsk, g')) ∧
    (fillSeededBsk f lweKey key N k b level bodies g = none →
      fillBsk f lweKey key N k b level out g = none) := by
  have hkN : 0 < (k + 1) * N := Nat.mul_pos (by omega) hN
  have hS : 0 < level * ((k + 1) * N) := Nat.mul_pos hL hkN
  have hG : 0 < level * ((k + 1) * ((k + 1) * N)) := Nat.mul_pos hL (Nat.mul_pos (by omega) hkN)
  have hstd := fun res g' => bskFill_iff (fun _ => encryptGgsw f key N k b) _ hG lweKey N k level
    (List.range lweKey.length) (List.Perm.refl _) out ho g g' res
    (fun i c s g1 c' g2 hc hf => by
      rw [encryptGgsw_eq_par f key N k b level hN c s g1 hc] at hf
      exact fill_size f N k b level hN key hk c s g1 c' g2 _ _ (List.Perm.refl _) (fun _ _ => List.Perm.refl _) hc hf)
  have hsd := fun res g' => bskFill_iff (fun _ => encryptSeededGgsw f key N k b) _ hS lweKey N k level
    (List.range lweKey.length) (List.Perm.refl _) bodies hb g g' res
    (fun i c s g1 c' g2 hc hf => by
      rw [encryptSeededGgsw_eq_par f key N k b level hN c s g1 hc] at hf
      exact fillSeeded_size f N k b level hN key hk c s g1 c' g2 _ _ (List.Perm.refl _) (fun _ _ => List.Perm.refl _) hc hf)
  have hsub : ∀ i s, _ := fun i s => C17_ggsw f N k b level hN key
    (List.replicate (level * ((k + 1) * ((k + 1) * N))) 0#w) (List.replicate (level * ((k + 1) * N)) 0#w) s
    (g.slice (level * ((k + 1) * mB w k N)) (level * ((k + 1) * nB N)) i) hk (by simp) (by simp)
  constructor
  · intro bs g' h
    obtain ⟨room, hg', hl, hrow⟩ := (hsd bs g').1 h
    obtain ⟨r1, r2, r3, r4, r5⟩ := room
    have hpos : g.mask.pos ≤ g.mask.bound := by omega
    have hassoc : ∀ x : Nat, lweKey.length * (level * (k + 1)) * x = lweKey.length * (level * ((k + 1) * x)) := by
      intro x; rw [Nat.mul_assoc, Nat.mul_assoc]
    have hroom : g.mask.pos + lweKey.length * (level * (k + 1)) * mB w k N ≤ g.mask.bound := by
      rw [hassoc]; exact r4
    obtain ⟨bsk, hctl, hct⟩ := exists_blocks (lweKey.length * (level * (k + 1))) ((k + 1) * N) hkN
      (fun t c => c = maskWords w g.mask (g.mask.pos + t * mB w k N) (k * N) ++ block N bs t)
      (fun t ht => ⟨_, by
        rw [List.length_append, maskWords, List.length_map, List.length_range,
          block_len N _ t bs (by rw [hl, hassoc]) ht, Nat.add_mul, Nat.one_mul], rfl⟩)
    refine ⟨bsk, fun out' ho' => ?_, (hstd bsk g').2 ⟨⟨r1, r2, r3, r4, r5⟩, hg', by rw [hctl, hassoc], ?_⟩⟩
    · rw [expandBsk_eq_list N k level lweKey.length hN hL out' bs g.mask ho' hl,
        expandList_iff N k (lweKey.length * (level * (k + 1))) hN out' bs g.mask _ (by rw [ho', hassoc])
          (by rw [hl, hassoc]) hpos]
      exact ⟨hroom, by rw [hg', hassoc], hctl, hct⟩
    · intro i hi
      obtain ⟨gi, e1⟩ := hrow i hi
      obtain ⟨ct, e2, e3⟩ := (hsub i (lweKey.getD i 0)).1 _ _ e1
      refine ⟨gi, ?_⟩
      rw [e3]
      simp only [Option.some.injEq, Prod.mk.injEq, and_true]
      have hbl := block_len _ _ i bs hl hi
      have e2' := e2 _ (List.length_replicate (a := 0#w))
      have hposi : (g.slice (level * ((k + 1) * mB w k N)) (level * ((k + 1) * nB N)) i).mask.pos ≤
          (g.slice (level * ((k + 1) * mB w k N)) (level * ((k + 1) * nB N)) i).mask.bound := by
        simp only [EncGen.slice]; rw [Nat.add_mul i 1, Nat.one_mul]; omega
      rw [expandGgsw_eq_list N k level hN _ _ _ (by simp) hbl,
        expandList_iff N k (level * (k + 1)) hN _ _ _ _ (by rw [List.length_replicate, Nat.mul_assoc])
          (by rw [hbl, Nat.mul_assoc]) hposi] at e2'
      obtain ⟨_, _, q1, q2⟩ := e2'
      have hbk := block_len _ _ i bsk (by rw [hctl, hassoc]) hi
      apply ext_block (level * (k + 1)) ((k + 1) * N) hkN _ _ q1 (by rw [hbk, Nat.mul_assoc])
      intro t ht
      have ht' : i * (level * (k + 1)) + t < lweKey.length * (level * (k + 1)) :=
        calc i * (level * (k + 1)) + t < i * (level * (k + 1)) + level * (k + 1) := by omega
          _ = (i + 1) * (level * (k + 1)) := by rw [Nat.add_mul i, Nat.one_mul]
          _ ≤ lweKey.length * (level * (k + 1)) := Nat.mul_le_mul_right _ hi
      have hb1 := block_block ((k + 1) * N) (level * (k + 1)) bsk i t ht
      have hb2 := block_block N (level * (k + 1)) bs i t ht
      rw [Nat.mul_assoc] at hb1 hb2
      rw [q2 t ht, hb1, hct _ ht', ← hb2]
      congr 1
      simp only [EncGen.slice, maskWords]
      apply List.map_congr_left
      intro x _
      congr 1
      rw [Nat.add_mul (i * (level * (k + 1))), Nat.mul_assoc i, Nat.mul_assoc level]
      omega
  · intro h
    cases hs : fillBsk f lweKey key N k b level out g with
    | none => rfl
    | some x =>
      obtain ⟨ct, g'⟩ := x
      obtain ⟨room, hg', hl, hrow⟩ := (hstd ct g').1 hs
      obtain ⟨bs, hbl, hbs⟩ := exists_blocks lweKey.length (level * ((k + 1) * N)) hS
        (fun i c => ∃ gi, encryptSeededGgsw f key N k b (List.replicate (level * ((k + 1) * N)) 0#w)
          (lweKey.getD i 0) (g.slice (level * ((k + 1) * mB w k N)) (level * ((k + 1) * nB N)) i) =
          some (c, gi))
        (fun i hi => by
          obtain ⟨gi, e⟩ := hrow i hi
          cases hx : encryptSeededGgsw f key N k b (List.replicate (level * ((k + 1) * N)) 0#w)
            (lweKey.getD i 0) (g.slice (level * ((k + 1) * mB w k N)) (level * ((k + 1) * nB N)) i) with
          | none =>
            rw [(hsub i (lweKey.getD i 0)).2 hx] at e; cases e
          | some y =>
            refine ⟨y.1, ?_, y.2, rfl⟩
            have hx' := hx
            rw [encryptSeededGgsw_eq_par f key N k b level hN _ _ _ (by simp)] at hx'
            exact fillSeeded_size f N k b level hN key hk _ _ _ y.1 y.2 _ _ (List.Perm.refl _)
              (fun _ _ => List.Perm.refl _) (by simp) hx')
      have := (hsd bs g').2 ⟨room, hg', hbl, hbs⟩
      rw [fillSeededBsk] at h
      rw [h] at this; cases this

/-! ### C19 -/

/-- C19 (GGSW): the masks of a GGSW encryption are consecutive words of the mask stream: word `i` of the
mask of row `t` is word `t k N + i`; so no word is used twice, none is skipped, and the stream ends just
after the last. -/
theorem C19_ggsw_masks (f : GaussianFn w) (N k b level : Nat) (hN : 0 < N) (key out ct : List (BitVec w))
    (msg : BitVec w) (g g' : EncGen) (hk : KeyFits N k key)
    (ho : out.length = level * ((k + 1) * ((k + 1) * N)))
    (h : encryptGgsw f key N k b out msg g = some (ct, g')) :
    g'.mask = g.mask.skip (level * (k + 1) * (k * N) * (w / 8)) ∧
    ∀ t i, t < level * (k + 1) → i < k * N →
      (block ((k + 1) * N) ct t).getD i 0 = wordAt w g.mask.table (g.mask.pos + (t * (k * N) + i) * (w / 8)) := by
  have hkN : 0 < (k + 1) * N := Nat.mul_pos (by omega) hN
  rw [encryptGgsw_eq_par f key N k b level hN out msg g ho] at h
  obtain ⟨room, hg', hl, hrow⟩ := (ggswFill_iff (rowEnc f key N) _ hkN key N k b level hN
    (keeps_rowEnc f key N k hN hk) msg g g' _ _ (List.Perm.refl _) (fun _ _ => List.Perm.refl _) out ct ho).1 h
  refine ⟨by rw [hg']; simp only [mB, Nat.mul_assoc], fun t i ht hi => ?_⟩
  obtain ⟨j, r, hj, hr, e⟩ := index_split ht
  obtain ⟨⟨c, gi⟩, hx, e1⟩ := Option.map_eq_some_iff.1 (hrow j hj r hr)
  rw [← e] at e1 hx
  simp only at e1
  subst e1
  obtain ⟨m1, _, _⟩ := encrypt_mask (block_len _ _ _ out (by rw [ho, Nat.mul_assoc]) ht) (by
    simp only [EncGen.slice]; rw [Nat.add_mul, Nat.one_mul]; omega) hx
  have : (block ((k + 1) * N) ct t).getD i 0 = ((block ((k + 1) * N) ct t).take (k * N)).getD i 0 := by
    simp only [List.getD_eq_getElem?_getD, List.getElem?_take_of_lt hi]
  rw [this, m1]
  simp only [maskWords, EncGen.slice, List.getD_eq_getElem?_getD, List.getElem?_map,
    List.getElem?_range hi, Option.map_some, Option.getD_some]
  congr 1
  simp only [mB]
  rw [Nat.add_mul, ← Nat.mul_assoc k, Nat.mul_assoc t, Nat.add_assoc]

/-- C19 (GGSW): a GGSW encryption whose generator has room never runs out of mask bytes: if it panics,
drawing the noise of some row did. -/
theorem C19_ggsw_only_noise_fails (f : GaussianFn w) (N k b level : Nat) (hN : 0 < N)
    (key out : List (BitVec w)) (msg : BitVec w) (g : EncGen) (hk : KeyFits N k key)
    (ho : out.length = level * ((k + 1) * ((k + 1) * N))) (hL : 0 < level) (hm : 0 < k * (N * (w / 8)))
    (h1 : g.mask.pos + level * ((k + 1) * (k * (N * (w / 8)))) ≤ g.mask.bound)
    (h2 : g.noise.pos + level * ((k + 1) * (N * 256)) ≤ g.noise.bound)
    (h : encryptGgsw f key N k b out msg g = none) :
    ∃ t, t < level * (k + 1) ∧ randomNoiseTensor f N { g.noise with pos := g.noise.pos + t * (N * 256), bound := g.noise.pos + (t + 1) * (N * 256) } = none := by
  have hkN : 0 < (k + 1) * N := Nat.mul_pos (by omega) hN
  by_contra hc
  have hall : ∀ t, t < level * (k + 1) → ∃ e gn,
      randomNoiseTensor f N (g.slice (mB w k N) (nB N) t).noise = some (e, gn) := by
    intro t ht
    cases hx : randomNoiseTensor f N (g.slice (mB w k N) (nB N) t).noise with
    | none => exact absurd ⟨t, ht, hx⟩ hc
    | some y => exact ⟨y.1, y.2, rfl⟩
  obtain ⟨ct, hl, hct⟩ := exists_blocks (level * (k + 1)) ((k + 1) * N) hkN
    (fun t c => ∀ m : List (BitVec w), t / (k + 1) * (k + 1) + t % (k + 1) = t →
      m = rowPlaintext key N k (-msg * gadget w b (t / (k + 1) + 1)) (t % (k + 1)) →
      rowEnc f key N m (g.slice (mB w k N) (nB N) t) (block ((k + 1) * N) out t) = some c)
    (fun t ht => by
      obtain ⟨e, gn, hn⟩ := hall t ht
      have hf : CtFits N k (block ((k + 1) * N) out t) := block_len _ _ _ out (by rw [ho, Nat.mul_assoc]) ht
      obtain ⟨c, hcc⟩ := encryptGlwe_ok f key (block ((k + 1) * N) out t)
        (rowPlaintext key N k (-msg * gadget w b (t / (k + 1) + 1)) (t % (k + 1))) N k
        (g.slice (mB w k N) (nB N) t) hf (by
          simp only [EncGen.slice]; rw [Nat.add_mul t 1, Nat.one_mul, Nat.mul_assoc k]; exact Nat.le_of_eq (Nat.add_assoc _ _ _)) e gn hn
      have e0 : rowEnc f key N (rowPlaintext key N k (-msg * gadget w b (t / (k + 1) + 1)) (t % (k + 1)))
          (g.slice (mB w k N) (nB N) t) (block ((k + 1) * N) out t) = some c := by rw [rowEnc, hcc]; rfl
      refine ⟨c, keeps_rowEnc f key N k hN hk _ _ _ _ _ hf e0, fun m _ hm => by rw [hm]; exact e0⟩)
  have := (ggswFill_iff (rowEnc f key N) _ hkN key N k b level hN
    (keeps_rowEnc f key N k hN hk) msg g _ _ _ (List.Perm.refl _) (fun _ _ => List.Perm.refl _) out ct ho).2
    ⟨⟨hL, hm, h1, h2⟩, rfl, by rw [hl, Nat.mul_assoc], fun j hj r hr => by
      have ht := row_index hj hr
      have d1 : (j * (k + 1) + r) / (k + 1) = j := by
        rw [Nat.mul_comm, Nat.mul_add_div (by omega), Nat.div_eq_of_lt hr, Nat.add_zero]
      have d2 : (j * (k + 1) + r) % (k + 1) = r := by
        rw [Nat.mul_comm, Nat.mul_add_mod, Nat.mod_eq_of_lt hr]
      have := hct _ ht (rowPlaintext key N k (-msg * gadget w b (j + 1)) r) (by rw [d1, d2]) (by rw [d1, d2])
      exact this⟩
  rw [encryptGgsw_eq_par f key N k b level hN out msg g ho] at h
  rw [parEncryptGgsw] at h
  rw [h] at this; cases this

/-- A seeded bootstrap key generation that succeeds, with its expansion. -/
example :
    let f : GaussianFn 8 := { accept := fun _ _ => true, value := fun _ _ => (1#8, 2#8) }
    let g : EncGen := { mask := ⟨fun p => BitVec.ofNat 8 (p * p), 1, 1000⟩, noise := ⟨fun p => BitVec.ofNat 8 p, 1, 8000⟩ }
    ∃ bs g', fillSeededBsk f [1#8, 0#8] [1#8, 0#8] 2 1 3 2 (List.replicate 16 0#8) g = some (bs, g') ∧
      (expandBsk 2 1 2 (List.replicate 32 0#8) bs g.mask).isSome := by
  refine ⟨_, _, rfl, ?_⟩
  decide

/-- A GGSW encryption with room for its mask whose noise generator never accepts: it panics. -/
example :
    let f : GaussianFn 8 := { accept := fun _ _ => false, value := fun _ _ => (1#8, 2#8) }
    let g : EncGen := { mask := ⟨fun p => BitVec.ofNat 8 (p * p), 1, 1000⟩, noise := ⟨fun p => BitVec.ofNat 8 p, 1, 5000⟩ }
    g.mask.pos + 2 * (2 * (1 * (2 * (8 / 8)))) ≤ g.mask.bound ∧
    encryptGgsw f [1#8, 0#8] 2 1 3 (List.replicate 16 0#8) 1#8 g = none := by
  refine ⟨by decide, by decide +kernel⟩

end Verif.Glwe
