import Verif.Gsw.Lemmas
import Verif.Glwe.Props2
import Verif.Glwe.Props3
/-
Property C52 (GSW ciphertexts) and the GSW part of C19. `Encrypts` and `rowFactor` are defined in
`Verif.Gsw.Spec`, `phase`, `Fits` and `BinaryKey` in `Verif.Lwe.Spec`.
-/
set_option linter.unusedSectionVars false
namespace Verif.Gsw
open Verif.Random Verif.Lwe Verif.Glwe Verif.Decomp

variable {w : Nat}

/-! ### Encryption -/

/-- C52: a successful GSW encryption of `msg` encrypts `msg`: row `r` of level `j + 1` has phase
`msg · 2^(w - b(j+1)) · rowFactor` plus the noise drawn from the part of the noise stream reserved for
this row. -/
theorem C52_encrypt (bld : Csprng.Build) (f : GaussianFn w) (key out res : List (BitVec w)) (b level : Nat)
    (msg : BitVec w) (g g' : EncGen)
    (ho : out.length = level * ((key.length + 1) * (key.length + 1)))
    (h : encryptGsw bld f key b out msg g = some (res, g')) :
    ∃ e : Nat → Nat → BitVec w, Encrypts b level key msg e res ∧
      ∀ j, j < level → ∀ r, r < key.length + 1 → ∃ gn,
        randomNoise f { g.noise with
          pos := g.noise.pos + (j * (key.length + 1) + r) * 768,
          bound := g.noise.pos + (j * (key.length + 1) + r + 1) * 768 } = some (e j r, gn) := by
  rw [encryptGsw_eq_par bld f key b level out msg g ho] at h
  obtain ⟨_, _, hl, hrow⟩ := (parEncryptGsw_iff bld f key b level msg g g' _ _ (List.Perm.refl _)
    (fun _ _ => List.Perm.refl _) out res ho).1 h
  have main : ∀ j r, ∃ e : BitVec w, j < level → r < key.length + 1 →
      phase key (block (key.length + 1) res (j * (key.length + 1) + r)) =
        msg * ((2 ^ (w - b * (j + 1)) : Nat) : BitVec w) * rowFactor key r + e ∧ ∃ gn,
        randomNoise f { g.noise with
          pos := g.noise.pos + (j * (key.length + 1) + r) * 768,
          bound := g.noise.pos + (j * (key.length + 1) + r + 1) * 768 } = some (e, gn) := by
    intro j r
    by_cases hj : j < level
    · by_cases hr : r < key.length + 1
      · obtain ⟨d, hd, hrows⟩ := hrow j hj
        obtain ⟨ct, g1, h1, h2⟩ := hrows r hr
        have hfit : Fits key (block (key.length + 1) out (j * (key.length + 1) + r)) := by
          apply block_length
          rw [ho, ← Nat.mul_assoc]
          exact Nat.mul_le_mul_right _ (row_index hj hr)
        obtain ⟨e, hn, hf, hph⟩ := encryptLwe_phase hfit h1
        refine ⟨e, fun _ _ => ⟨?_, _, hn⟩⟩
        rw [addDiagonal_phase hr hf h2, hph, gswFactor_eq hd]
        have e0 : (0#w : BitVec w) = 0 := rfl
        rw [e0]; ring
      · exact ⟨0, fun _ h => absurd h hr⟩
    · exact ⟨0, fun h => absurd h hj⟩
  choose e he using main
  exact ⟨e, ⟨hl, fun j hj r hr => (he j r hj hr).1⟩, fun j hj r hr => (he j r hj hr).2⟩

/-- C52: in release builds, a generator with room for the ciphertext encrypts any message as soon as
the noise of every row can be drawn. -/
theorem C52_encrypt_defined (f : GaussianFn w) (key out : List (BitVec w)) (b level : Nat)
    (msg : BitVec w) (g : EncGen) (ho : out.length = level * ((key.length + 1) * (key.length + 1)))
    (hl : 0 < level) (hm : 0 < key.length * (w / 8))
    (h1 : g.mask.pos + level * ((key.length + 1) * (key.length * (w / 8))) ≤ g.mask.bound)
    (h2 : g.noise.pos + level * ((key.length + 1) * 768) ≤ g.noise.bound)
    (hn : ∀ t, t < level * (key.length + 1) → (randomNoise f { g.noise with
      pos := g.noise.pos + t * 768, bound := g.noise.pos + (t + 1) * 768 }).isSome) :
    (encryptGsw .release f key b out msg g).isSome := by
  have hn1 : 0 < key.length + 1 := by omega
  obtain ⟨res, hrl, hres⟩ := exists_blocks (level * (key.length + 1)) (key.length + 1) hn1
    (fun t c => RowOk f key (msg * gadget w b (t / (key.length + 1) + 1)) (t % (key.length + 1))
      (g.slice (mL w key.length) nL t) (block (key.length + 1) out t) c)
    (fun t ht => by
      have hf : Fits key (block (key.length + 1) out t) :=
        block_length _ _ _ (by rw [ho, ← Nat.mul_assoc]; exact Nat.mul_le_mul_right _ ht)
      obtain ⟨⟨e, gn⟩, hx⟩ := Option.isSome_iff_exists.1 (hn t ht)
      obtain ⟨ct, hct⟩ := encryptLwe_ok f key (block (key.length + 1) out t) 0#w
        (g.slice (mL w key.length) nL t) hf (by
          simp only [EncGen.slice]; rw [Nat.add_mul t 1, Nat.one_mul]; exact Nat.le_of_eq (Nat.add_assoc _ _ _)) e gn hx
      obtain ⟨_, _, hfc, _⟩ := encryptLwe_phase hf hct
      have hlt : t % (key.length + 1) < ct.length := by rw [hfc]; exact Nat.mod_lt _ (by omega)
      refine ⟨ct.modify (t % (key.length + 1)) (fun x => x + msg * gadget w b (t / (key.length + 1) + 1)),
        by rw [List.length_modify]; exact hfc, ct, _, hct, by rw [addDiagonal, if_pos hlt]⟩)
  have := (parEncryptGsw_iff .release f key b level msg g _ _ _ (List.Perm.refl _)
    (fun _ _ => List.Perm.refl _) out res ho).2 ⟨⟨hl, hm, h1, h2⟩, rfl, by rw [hrl, Nat.mul_assoc],
      fun j hj => ⟨msg * gadget w b (j + 1), rfl, fun r hr => by
        have ht := row_index hj hr
        have d1 : (j * (key.length + 1) + r) / (key.length + 1) = j := by
          rw [Nat.mul_comm, Nat.mul_add_div (by omega), Nat.div_eq_of_lt hr, Nat.add_zero]
        have d2 : (j * (key.length + 1) + r) % (key.length + 1) = r := by
          rw [Nat.mul_comm, Nat.mul_add_mod, Nat.mod_eq_of_lt hr]
        have := hres _ ht
        rwa [d1, d2] at this⟩⟩
  rw [encryptGsw_eq_par .release f key b level out msg g ho, this]
  rfl

/-- C52, finding: with overflow checks every message that is not below the decomposition base
panics: the multiplication by the gadget of the first level overflows. The release build encrypts
the same message (`C52_encrypt_defined`). -/
theorem C52_debug_overflow (f : GaussianFn w) (key out : List (BitVec w)) (b level : Nat)
    (msg : BitVec w) (g : EncGen) (ho : out.length = level * ((key.length + 1) * (key.length + 1)))
    (hl : 0 < level) (hb : 0 < b) (hbw : b ≤ w) (hm : 2 ^ b ≤ msg.toNat) :
    encryptGsw .debug f key b out msg g = none := by
  rw [encryptGsw_eq_par .debug f key b level out msg g ho]
  by_contra hc
  obtain ⟨⟨res, g'⟩, hx⟩ := Option.ne_none_iff_exists'.1 hc
  obtain ⟨_, _, _, hrow⟩ := (parEncryptGsw_iff .debug f key b level msg g g' _ _ (List.Perm.refl _)
    (fun _ _ => List.Perm.refl _) out res ho).1 hx
  obtain ⟨d, hd, _⟩ := hrow 0 hl
  have := (gswFactor_debug (w := w) b (0 + 1) (by omega) (by omega) msg).1 (by rw [hd]; rfl)
  simp only [Nat.zero_add, Nat.mul_one] at this
  omega

/-- C52: below the base, both builds compute the same thing (as long as the levels fit in the word). -/
theorem C52_debug_eq_release (f : GaussianFn w) (key out : List (BitVec w)) (b level : Nat)
    (msg : BitVec w) (g : EncGen) (ho : out.length = level * ((key.length + 1) * (key.length + 1)))
    (hb : 0 < b) (hbw : b * level ≤ w) (hm : msg.toNat < 2 ^ b) :
    encryptGsw .debug f key b out msg g = encryptGsw .release f key b out msg g := by
  rw [encryptGsw_eq_par .debug f key b level out msg g ho,
    encryptGsw_eq_par .release f key b level out msg g ho]
  have hfac : ∀ j, j < level → gswFactor .debug b (j + 1) msg = gswFactor .release b (j + 1) msg := by
    intro j hj
    have h1 : b * (j + 1) ≤ w := (Nat.mul_le_mul_left b hj).trans hbw
    have h2 : b ≤ b * (j + 1) := Nat.le_mul_of_pos_right b (by omega)
    have := (gswFactor_debug (w := w) b (j + 1) (by omega) h1 msg).2
      (hm.trans_le (Nat.pow_le_pow_right (by omega) h2))
    obtain ⟨d, hd⟩ := Option.isSome_iff_exists.1 this
    rw [hd, gswFactor_eq hd]
    have e : (gadget w b (j + 1)) = ((2 ^ (w - b * (j + 1)) : Nat) : BitVec w) := by
      rw [gadget_eq]; push_cast; rfl
    rw [gswFactor, e]
  apply Option.ext
  rintro ⟨res, g'⟩
  rw [parEncryptGsw_iff .debug f key b level msg g g' _ _ (List.Perm.refl _)
      (fun _ _ => List.Perm.refl _) out res ho,
    parEncryptGsw_iff .release f key b level msg g g' _ _ (List.Perm.refl _)
      (fun _ _ => List.Perm.refl _) out res ho]
  constructor
  · rintro ⟨a1, a2, a3, a4⟩
    exact ⟨a1, a2, a3, fun j hj => by rw [← hfac j hj]; exact a4 j hj⟩
  · rintro ⟨a1, a2, a3, a4⟩
    exact ⟨a1, a2, a3, fun j hj => by rw [hfac j hj]; exact a4 j hj⟩

/-- C52: the multithreaded encryption gives the result of the sequential one (same words, same panics,
same generator states) for every order in which the levels and the rows are processed. -/
theorem C52_parallel (bld : Csprng.Build) (f : GaussianFn w) (key out : List (BitVec w)) (b level : Nat)
    (msg : BitVec w) (g : EncGen) (sched : List Nat) (rowSched : Nat → List Nat)
    (hp : sched.Perm (List.range level))
    (hs : ∀ j, j < level → (rowSched j).Perm (List.range (key.length + 1)))
    (ho : out.length = level * ((key.length + 1) * (key.length + 1))) :
    parEncryptGsw bld f key b sched rowSched out msg g = encryptGsw bld f key b out msg g := by
  rw [encryptGsw_eq_par bld f key b level out msg g ho]
  apply Option.ext
  rintro ⟨res, g'⟩
  rw [parEncryptGsw_iff bld f key b level msg g g' _ _ hp hs out res ho,
    parEncryptGsw_iff bld f key b level msg g g' _ _ (List.Perm.refl _)
      (fun _ _ => List.Perm.refl _) out res ho]

/-- C19 (GSW): the masks of a GSW encryption are consecutive words of the mask stream, apart from the
multiple of the message added on the diagonal; the mask generator ends just after the last one. -/
theorem C19_gsw_masks (bld : Csprng.Build) (f : GaussianFn w) (key out res : List (BitVec w)) (b level : Nat)
    (msg : BitVec w) (g g' : EncGen)
    (ho : out.length = level * ((key.length + 1) * (key.length + 1)))
    (h : encryptGsw bld f key b out msg g = some (res, g')) :
    g'.mask = g.mask.skip (level * (key.length + 1) * key.length * (w / 8)) ∧
    ∀ j r i, j < level → r < key.length + 1 → i < key.length →
      (block (key.length + 1) res (j * (key.length + 1) + r)).getD i 0 =
        wordAt w g.mask.table (g.mask.pos + ((j * (key.length + 1) + r) * key.length + i) * (w / 8)) +
        (if i = r then msg * ((2 ^ (w - b * (j + 1)) : Nat) : BitVec w) else 0) := by
  rw [encryptGsw_eq_par bld f key b level out msg g ho] at h
  obtain ⟨_, hg', hl, hrow⟩ := (parEncryptGsw_iff bld f key b level msg g g' _ _ (List.Perm.refl _)
    (fun _ _ => List.Perm.refl _) out res ho).1 h
  refine ⟨by rw [hg']; simp only [mL, Nat.mul_assoc], fun j r i hj hr hi => ?_⟩
  obtain ⟨d, hd, hrows⟩ := hrow j hj
  obtain ⟨ct, g1, h1, h2⟩ := hrows r hr
  have hfit : Fits key (block (key.length + 1) out (j * (key.length + 1) + r)) := by
    apply block_length
    rw [ho, ← Nat.mul_assoc]
    exact Nat.mul_le_mul_right _ (row_index hj hr)
  obtain ⟨_, _, hfc, _⟩ := encryptLwe_phase hfit h1
  obtain ⟨m1, _, _⟩ := Lwe.encrypt_mask hfit (by
    simp only [EncGen.slice]; rw [Nat.add_mul _ 1, Nat.one_mul]; omega) h1
  have hct : ct.getD i 0 =
      wordAt w g.mask.table (g.mask.pos + ((j * (key.length + 1) + r) * key.length + i) * (w / 8)) := by
    have : ct.getD i 0 = (ct.take key.length).getD i 0 := by
      simp only [List.getD_eq_getElem?_getD, List.getElem?_take_of_lt hi]
    rw [this, m1]
    simp only [EncGen.slice, List.getD_eq_getElem?_getD, List.getElem?_map,
      List.getElem?_range hi, Option.map_some, Option.getD_some]
    congr 1
    simp only [mL]
    rw [Nat.add_mul _ i, Nat.mul_assoc (_ + r), Nat.add_assoc]
  have hi' : i < ct.length := by rw [hfc]; omega
  unfold addDiagonal at h2
  split at h2
  · rw [Option.some.injEq] at h2
    rw [← h2, ← hct, ← gswFactor_eq hd]
    simp only [List.getD_eq_getElem?_getD, List.getElem?_modify, List.getElem?_eq_getElem hi']
    by_cases hir : i = r
    · simp [hir]
    · have : ¬ r = i := fun h => hir h.symm
      simp [hir, this]
  · cases h2

/-! ### Trivial encryption -/

theorem trivialRows_spec (f : GaussianFn w) (n : Nat) : ∀ (rows : List (List (BitVec w))) (g g' : Src)
    (rs : List (List (BitVec w))), (∀ x ∈ rows, x.length = n + 1) → trivialRows f rows g = some (rs, g') →
    ∃ es, rep rows.length (randomNoise f) g = some (es, g') ∧ es.length = rows.length ∧
      rs = es.map fun e => List.replicate n 0#w ++ [e]
  | [], g, g', rs, _, h => by
    simp only [trivialRows, Option.some.injEq, Prod.mk.injEq] at h
    obtain ⟨rfl, rfl⟩ := h
    exact ⟨[], rfl, rfl, rfl⟩
  | row :: rows, g, g', rs, hl, h => by
    simp only [trivialRows] at h
    split at h
    · cases h
    · rename_i e g1 he
      split at h
      · cases h
      · rename_i rs1 g2 hr
        simp only [Option.some.injEq, Prod.mk.injEq] at h
        obtain ⟨rfl, rfl⟩ := h
        obtain ⟨es, h1, h2, h3⟩ := trivialRows_spec f n rows g1 g2 rs1
          (fun x hx => hl x (by simp [hx])) hr
        refine ⟨e :: es, ?_, by simp [h2], ?_⟩
        · simp only [List.length_cons, rep, he, h1]
        · rw [hl row (by simp), h3]; rfl

/-- C52: the trivial encryption of `msg` encrypts `msg` under every key of its dimension, with the
noises drawn in order, one per row; the mask generator is not used. -/
theorem C52_trivial (bld : Csprng.Build) (f : GaussianFn w) (s out res : List (BitVec w)) (b level : Nat)
    (msg : BitVec w) (g g' : EncGen) (ho : out.length = level * ((s.length + 1) * (s.length + 1)))
    (h : trivialEncryptGsw bld f (s.length + 1) b out msg g = some (res, g')) :
    ∃ es, rep (level * (s.length + 1)) (randomNoise f) g.noise = some (es, g'.noise) ∧
      Encrypts b level s msg (fun j r => es.getD (j * (s.length + 1) + r) 0) res ∧ g'.mask = g.mask := by
  have hpos : 0 < (s.length + 1) * (s.length + 1) := Nat.mul_pos (by omega) (by omega)
  have ho2 : out.length = level * (s.length + 1) * (s.length + 1) := by rw [ho, Nat.mul_assoc]
  simp only [trivialEncryptGsw, show out.length / ((s.length + 1) * (s.length + 1)) = level by
    rw [ho, Nat.mul_div_cancel _ hpos]] at h
  split at h
  · cases h
  rename_i rows gn hrows
  obtain ⟨es, he1, he2, he3⟩ := trivialRows_spec f s.length _ _ _ _ (by
    intro x hx
    rw [chunks_eq _ (by omega) _ _ ho2] at hx
    obtain ⟨i, hi, rfl⟩ := List.mem_map.1 hx
    exact block_length _ _ _ (by rw [ho2]; exact Nat.mul_le_mul_right _ (List.mem_range.1 hi))) hrows
  rw [chunks_length _ (by omega) _ _ ho2] at he1 he2
  have hrl : ∀ x ∈ rows, x.length = s.length + 1 := by
    intro x hx
    rw [he3] at hx
    obtain ⟨e, _, rfl⟩ := List.mem_map.1 hx
    simp
  have hrlen : rows.length = level * (s.length + 1) := by rw [he3, List.length_map, he2]
  have hfl : rows.flatten.length = level * ((s.length + 1) * (s.length + 1)) := by
    rw [flatten_length_uniform _ _ hrl, hrlen, Nat.mul_assoc]
  have hblk : ∀ t, t < level * (s.length + 1) →
      block (s.length + 1) rows.flatten t = List.replicate s.length 0#w ++ [es.getD t 0] := by
    intro t ht
    apply block_flatten _ (by omega) rows hrl t
    rw [he3, List.getElem?_map, List.getD_eq_getElem?_getD, List.getElem?_eq_getElem (by omega)]
    rfl
  have hlev : ∀ i c c', c.length = (s.length + 1) * (s.length + 1) →
      (trivialLevel bld (s.length + 1) b msg i c = some c' ↔
        c'.length = (s.length + 1) * (s.length + 1) ∧ ∃ d, gswFactor bld b (i + 1) msg = some d ∧
        ∀ r, r < s.length + 1 →
          addDiagonal d r (block (s.length + 1) c r) = some (block (s.length + 1) c' r)) := by
    intro i c c' hc
    simp only [trivialLevel]
    cases hd : gswFactor bld b (i + 1) msg with
    | none => simp
    | some d =>
      simp only
      rw [parFor_chunks _ _ _ (by omega) c hc _ (List.Perm.refl _) (by
        intro i c c' _ hcl h; rw [addDiagonal_length h]; exact hcl)]
      constructor
      · rintro ⟨h1, h2⟩
        exact ⟨h1, d, rfl, h2⟩
      · rintro ⟨h1, d', hd', h2⟩
        cases hd'
        exact ⟨h1, h2⟩
  have key := parFor_chunks (trivialLevel bld (s.length + 1) b msg) level
    ((s.length + 1) * (s.length + 1)) hpos rows.flatten hfl (List.range level) (List.Perm.refl _) (by
      intro i c c' hi hcl h
      exact ((hlev i c c' hcl).1 h).1)
  split at h
  · cases h
  rename_i ms hms
  simp only [Option.some.injEq, Prod.mk.injEq] at h
  obtain ⟨rfl, rfl⟩ := h
  obtain ⟨k1, k2⟩ := (key ms.flatten).1 (by rw [hms]; rfl)
  refine ⟨es, he1, ⟨k1, fun j hj r hr => ?_⟩, rfl⟩
  obtain ⟨_, d, hd, hdr⟩ := (hlev j _ _ (block_length _ _ _ (by
    rw [hfl]; exact Nat.mul_le_mul_right _ hj))).1 (k2 j hj)
  have := hdr r hr
  rw [block_block _ _ _ _ _ hr, block_block _ _ _ _ _ hr, hblk _ (row_index hj hr)] at this
  rw [addDiagonal_phase hr (by simp [Fits]) this, gswFactor_eq hd, Lwe.phase_append _ _ _ (by simp)]
  have e0 : (0#w : BitVec w) = 0 := rfl
  rw [e0, multisum_zero]
  ring

/-! ### External product and cmux -/

/-- C52: the external product of a GSW ciphertext of `m` with any LWE ciphertext adds to the phase of
the output `m` times the phase of a ciphertext `c` all of whose words are nearest representable values of
the words of the input, plus the digits of these words times the noises of the GSW ciphertext. -/
theorem C52_external_product (b l : Nat) (hv : ValidParams w b l) (s gsw out lwe : List (BitVec w))
    (m : BitVec w) (e : Nat → Nat → BitVec w) (hg : Encrypts b l s m e gsw) (ho : Fits s out)
    (hl : Fits s lwe) :
    ∃ (c : List (BitVec w)) (d : Nat → Nat → Int),
      Fits s c ∧ Fits s (externalProduct b (s.length + 1) gsw out lwe) ∧
      (∀ i, i < s.length + 1 → Representable b l (c.getD i 0) ∧
        -(2 ^ (w - b * l - 1) : Int) ≤ signedDiff (lwe.getD i 0) (c.getD i 0) ∧
        signedDiff (lwe.getD i 0) (c.getD i 0) < 2 ^ (w - b * l - 1)) ∧
      (∀ i, i < s.length + 1 → ∑ j ∈ Finset.range l,
        ((d i j : Int) : BitVec w) * ((2 ^ (w - b * (j + 1)) : Nat) : BitVec w) = c.getD i 0) ∧
      (∀ i j, i < s.length + 1 → j < l → -(2 ^ (b - 1) : Int) ≤ d i j ∧ d i j ≤ 2 ^ (b - 1)) ∧
      phase s (externalProduct b (s.length + 1) gsw out lwe) = phase s out + m * phase s c +
        ∑ j ∈ Finset.range l, ∑ r ∈ Finset.range (s.length + 1), ((d r j : Int) : BitVec w) * e j r := by
  obtain ⟨hf, hp⟩ := externalProduct_phase b l s gsw out lwe hg.1 ho hl
  choose d hd1 hd2 hd3 using fun i : Nat => ksDigit_spec b l hv (lwe.getD i 0)
  have hc : ∀ i, i < s.length + 1 → (lwe.map (closestRepresentable b l)).getD i 0 =
      closestRepresentable b l (lwe.getD i 0) := by
    intro i hi
    have hlt : i < lwe.length := by rw [hl]; exact hi
    simp [List.getD_eq_getElem?_getD, List.getElem?_eq_getElem hlt]
  refine ⟨lwe.map (closestRepresentable b l), d, by rw [Fits, List.length_map]; exact hl, hf, ?_,
    fun i hi => by rw [hc i hi]; exact hd3 i, fun i j _ hj => hd1 i j hj, ?_⟩
  · intro i hi
    rw [hc i hi]
    exact closest_signed b l hv _
  · rw [hp, add_assoc]
    congr 1
    rw [← Finset.sum_range_reflect]
    have h1 : ∀ j ∈ Finset.range l, ∑ r ∈ Finset.range (s.length + 1),
        phase s (block (s.length + 1) gsw ((l - 1 - (l - 1 - j)) * (s.length + 1) + r)) *
          ksDigit b l (lwe.getD r 0) (l - 1 - j) =
        ∑ r ∈ Finset.range (s.length + 1), (m * (rowFactor s r * (((d r j : Int) : BitVec w) *
          ((2 ^ (w - b * (j + 1)) : Nat) : BitVec w))) + ((d r j : Int) : BitVec w) * e j r) := by
      intro j hj
      have hj := Finset.mem_range.1 hj
      apply Finset.sum_congr rfl
      intro r hr
      rw [show l - 1 - (l - 1 - j) = j by omega, hg.2 j hj r (Finset.mem_range.1 hr),
        hd2 r (l - 1 - j) (by omega), show l - 1 - (l - 1 - j) = j by omega]
      ring
    rw [Finset.sum_congr rfl h1]
    simp only [Finset.sum_add_distrib]
    congr 1
    rw [Finset.sum_comm, phase_rows, Finset.mul_sum]
    apply Finset.sum_congr rfl
    intro r hr
    rw [← Finset.mul_sum, ← Finset.mul_sum, hd3 r, hc r (Finset.mem_range.1 hr)]

/-- C52, error bound: with a binary key, a message `μ` (as an integer) and noises at most `B` in absolute
value, the external product adds `μ` times the phase of the input, up to an error of absolute value at
most `|μ| (n+1) 2^(w-bl-1) + l (n+1) 2^(b-1) B`. -/
theorem C52_external_product_bound (b l : Nat) (hv : ValidParams w b l) (s gsw out lwe : List (BitVec w))
    (μ : Int) (e : Nat → Nat → Int) (B : Nat)
    (hg : Encrypts b l s (μ : BitVec w) (fun j r => ((e j r : Int) : BitVec w)) gsw)
    (he : ∀ j, j < l → ∀ r, r < s.length + 1 → |e j r| ≤ B) (hs : BinaryKey s) (ho : Fits s out)
    (hl : Fits s lwe) :
    ∃ E : Int, Fits s (externalProduct b (s.length + 1) gsw out lwe) ∧
      phase s (externalProduct b (s.length + 1) gsw out lwe) =
        phase s out + (μ : BitVec w) * phase s lwe + (E : BitVec w) ∧
      |E| ≤ |μ| * ((s.length + 1) * 2 ^ (w - b * l - 1)) + l * (s.length + 1) * 2 ^ (b - 1) * B := by
  obtain ⟨c, d, _, hf, hc, _, hd, hp⟩ := C52_external_product b l hv s gsw out lwe _ _ hg ho hl
  have hfac : ∀ r, ∃ t : Int, |t| ≤ 1 ∧ rowFactor s r = (t : BitVec w) := by
    intro r
    unfold rowFactor
    split
    · rename_i hr
      have : s.getD r 0 ∈ s := by
        simp [List.getD_eq_getElem?_getD, List.getElem?_eq_getElem hr]
      rcases hs _ this with h | h
      · exact ⟨0, by simp, by rw [h]; simp⟩
      · exact ⟨-1, by simp, by rw [h]; push_cast; rfl⟩
    · exact ⟨1, by simp, by simp⟩
  choose t ht1 ht2 using hfac
  refine ⟨-(μ * ∑ r ∈ Finset.range (s.length + 1), t r * signedDiff (lwe.getD r 0) (c.getD r 0)) +
    ∑ j ∈ Finset.range l, ∑ r ∈ Finset.range (s.length + 1), d r j * e j r, hf, ?_, ?_⟩
  · rw [hp]
    push_cast
    have : ∑ r ∈ Finset.range (s.length + 1), ((t r : Int) : BitVec w) *
        ((signedDiff (lwe.getD r 0) (c.getD r 0) : Int) : BitVec w) = phase s lwe - phase s c := by
      rw [phase_rows, phase_rows, ← Finset.sum_sub_distrib]
      apply Finset.sum_congr rfl
      intro r _
      rw [← ht2 r, signedDiff, BV.intCast_toInt]; ring
    rw [this]; ring
  · have h1 : |∑ r ∈ Finset.range (s.length + 1), t r * signedDiff (lwe.getD r 0) (c.getD r 0)| ≤
        (s.length + 1) * 2 ^ (w - b * l - 1) := by
      calc _ ≤ ∑ r ∈ Finset.range (s.length + 1), |t r * signedDiff (lwe.getD r 0) (c.getD r 0)| :=
            Finset.abs_sum_le_sum_abs _ _
        _ ≤ ∑ r ∈ Finset.range (s.length + 1), (2 ^ (w - b * l - 1) : Int) := by
            apply Finset.sum_le_sum
            intro r hr
            obtain ⟨-, h2, h3⟩ := hc r (Finset.mem_range.1 hr)
            rw [abs_mul]
            calc _ ≤ 1 * (2 ^ (w - b * l - 1) : Int) :=
                  mul_le_mul (ht1 r) (abs_le.2 ⟨h2, h3.le⟩) (abs_nonneg _) (by omega)
              _ = _ := one_mul _
        _ = _ := by simp
    have h2 : |∑ j ∈ Finset.range l, ∑ r ∈ Finset.range (s.length + 1), d r j * e j r| ≤
        l * (s.length + 1) * 2 ^ (b - 1) * B := by
      calc _ ≤ ∑ j ∈ Finset.range l, |∑ r ∈ Finset.range (s.length + 1), d r j * e j r| :=
            Finset.abs_sum_le_sum_abs _ _
        _ ≤ ∑ j ∈ Finset.range l, ∑ r ∈ Finset.range (s.length + 1), (2 ^ (b - 1) * B : Int) := by
            apply Finset.sum_le_sum
            intro j hj
            refine (Finset.abs_sum_le_sum_abs _ _).trans ?_
            apply Finset.sum_le_sum
            intro r hr
            rw [abs_mul]
            have h3 := hd r j (Finset.mem_range.1 hr) (Finset.mem_range.1 hj)
            have h4 := he j (Finset.mem_range.1 hj) r (Finset.mem_range.1 hr)
            exact mul_le_mul (abs_le.2 h3) h4 (abs_nonneg _) (by positivity)
        _ = _ := by simp; ring
    refine (abs_add_le _ _).trans (add_le_add ?_ h2)
    rw [abs_neg, abs_mul]
    exact mul_le_mul_of_nonneg_left h1 (abs_nonneg _)

/-- C52: the cmux by a GSW ciphertext of a bit selects: for the bit 0 the result has the phase of `ct0`,
for the bit 1 that of `ct1`, up to the error of the external product. -/
theorem C52_cmux (b l : Nat) (hv : ValidParams w b l) (s gsw ct0 ct1 : List (BitVec w)) (bit : Bool)
    (e : Nat → Nat → Int) (B : Nat)
    (hg : Encrypts b l s (if bit then 1 else 0) (fun j r => ((e j r : Int) : BitVec w)) gsw)
    (he : ∀ j, j < l → ∀ r, r < s.length + 1 → |e j r| ≤ B) (hs : BinaryKey s) (h0 : Fits s ct0)
    (h1 : Fits s ct1) :
    ∃ E : Int, Fits s (cmux b (s.length + 1) gsw ct0 ct1) ∧
      phase s (cmux b (s.length + 1) gsw ct0 ct1) = phase s (if bit then ct1 else ct0) + (E : BitVec w) ∧
      |E| ≤ (if bit then (s.length + 1) * 2 ^ (w - b * l - 1) else 0) +
        l * (s.length + 1) * 2 ^ (b - 1) * B := by
  have hmu : (if bit then 1 else 0 : BitVec w) = (((if bit then 1 else 0 : Int)) : BitVec w) := by
    cases bit <;> simp
  rw [hmu] at hg
  obtain ⟨E, e1, e2, e3⟩ := C52_external_product_bound b l hv s gsw ct0 (updateWithSub ct1 ct0) _ e B hg he hs
    h0 (fits_zipUpdate _ h1)
  refine ⟨E, e1, ?_, ?_⟩
  · rw [cmux, e2, phase_sub h1 h0]
    cases bit
    · simp
    · simp
  · refine e3.trans (le_of_eq ?_)
    cases bit <;> simp

/-- The hypotheses are met: width 16, base `2^4`, two levels, dimension 1. The encryption of 1 succeeds in
both builds, that of 16 panics with overflow checks, and the cmux selects. -/
example :
    let f : GaussianFn 16 := { accept := fun _ _ => true, value := fun _ _ => (1#16, 0#16) }
    let g : EncGen := { mask := ⟨fun p => BitVec.ofNat 8 (p * p + 7), 1, 1000⟩, noise := ⟨fun _ => 1#8, 1, 9000⟩ }
    let s := [1#16]
    ValidParams 16 4 2 ∧ BinaryKey s ∧
    ((encryptGsw .debug f s 4 (List.replicate 8 0#16) 1#16 g).map (·.1) =
      (encryptGsw .release f s 4 (List.replicate 8 0#16) 1#16 g).map (·.1)) ∧
    ((parEncryptGsw .release f s 4 [1, 0] (fun _ => [1, 0]) (List.replicate 8 0#16) 1#16 g).map (·.1) =
      (encryptGsw .release f s 4 (List.replicate 8 0#16) 1#16 g).map (·.1)) ∧
    ((encryptGsw .debug f s 4 (List.replicate 8 0#16) 16#16 g).isNone) ∧
    (encryptGsw .release f s 4 (List.replicate 8 0#16) 16#16 g).isSome ∧
    (trivialEncryptGsw .debug f 2 4 (List.replicate 8 0#16) 1#16 g).isSome ∧
    ((encryptGsw .release f s 4 (List.replicate 8 0#16) 1#16 g).bind fun r =>
      decryptLwe s (cmux 4 2 r.1 [0x1234#16, 0x2234#16] [0x1111#16, 0x6111#16])) = some 0x5002#16 := by
  refine ⟨⟨by omega, by omega, by omega⟩, by simp [BinaryKey], ?_, ?_, ?_, ?_, ?_, ?_⟩
  all_goals decide +kernel

end Verif.Gsw
