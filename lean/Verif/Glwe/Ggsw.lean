import Verif.Glwe.Lemmas
import Verif.Random.Fork
import Verif.Util.ParChunks
/-
Closed forms of the GGSW and bootstrap key encryptions.
-/
set_option linter.unusedSectionVars false
namespace Verif.Glwe
open Verif.Random Verif.Poly

variable {w : Nat}

/-- Mask bytes of a GLWE ciphertext. -/
abbrev mB (w k N : Nat) : Nat := k * (N * (w / 8))
/-- Noise bytes reserved for a GLWE ciphertext. -/
abbrev nB (N : Nat) : Nat := N * 256

/-- What a row encryption must keep. -/
def KeepsSize (enc : List (BitVec w) → EncGen → List (BitVec w) → Option (List (BitVec w)))
    (key : List (BitVec w)) (N k rowSize : Nat) : Prop :=
  ∀ (factor : BitVec w) r g row row', row.length = rowSize →
    enc (rowPlaintext key N k factor r) g row = some row' → row'.length = rowSize

theorem ggswLevelJob_iff (enc : List (BitVec w) → EncGen → List (BitVec w) → Option (List (BitVec w)))
    (rowSize : Nat) (hr : 0 < rowSize) (key : List (BitVec w)) (N k b level : Nat)
    (hc : 0 < mB w k N) (hN : 0 < N) (henc : KeepsSize enc key N k rowSize) (msg : BitVec w) (g : EncGen)
    (rowSched : Nat → List Nat) (hs : ∀ j, j < level → (rowSched j).Perm (List.range (k + 1)))
    (j : Nat) (hj : j < level) (matrix res : List (BitVec w)) (hm : matrix.length = (k + 1) * rowSize) :
    ggswLevelJob enc rowSize key N k b msg
        ((List.range level).map (g.slice ((k + 1) * mB w k N) ((k + 1) * nB N))) rowSched j matrix = some res ↔
      res.length = (k + 1) * rowSize ∧ ∀ r, r < k + 1 →
        enc (rowPlaintext key N k (-msg * gadget w b (j + 1)) r)
          (g.slice (mB w k N) (nB N) (j * (k + 1) + r)) (block rowSize matrix r) =
          some (block rowSize res r) := by
  have hget : ((List.range level).map (g.slice ((k + 1) * mB w k N) ((k + 1) * nB N)))[j]? =
      some (g.slice ((k + 1) * mB w k N) ((k + 1) * nB N) j) := by simp [hj]
  have hfork := encFork_eq (g.slice ((k + 1) * mB w k N) ((k + 1) * nB N) j) (k + 1) (mB w k N) (nB N)
    ⟨by omega, hc, by unfold nB; omega, by
      simp only [EncGen.slice]; rw [Nat.add_mul j, Nat.one_mul]; omega, by
      simp only [EncGen.slice]; rw [Nat.add_mul j, Nat.one_mul]; omega⟩
  have hforkd : EncGen.forkGgswLevelToGlwe (g.slice ((k + 1) * mB w k N) ((k + 1) * nB N) j) w (k + 1) N =
      EncGen.tryFork (g.slice ((k + 1) * mB w k N) ((k + 1) * nB N) j) (k + 1) (mB w k N) (nB N) := rfl
  simp only [ggswLevelJob, hget, hforkd, hfork]
  have hjob : ∀ r, r < k + 1 → ∀ row,
      ggswRowJob enc key N k (-msg * gadget w b (j + 1))
        ((List.range (k + 1)).map
          ((g.slice ((k + 1) * mB w k N) ((k + 1) * nB N) j).slice (mB w k N) (nB N))) r row =
      enc (rowPlaintext key N k (-msg * gadget w b (j + 1)) r)
        (g.slice (mB w k N) (nB N) (j * (k + 1) + r)) row := by
    intro r hr row
    have : ((List.range (k + 1)).map
          ((g.slice ((k + 1) * mB w k N) ((k + 1) * nB N) j).slice (mB w k N) (nB N)))[r]? =
        some ((g.slice ((k + 1) * mB w k N) ((k + 1) * nB N) j).slice (mB w k N) (nB N) r) := by simp [hr]
    simp only [ggswRowJob, this, EncGen.slice_slice]
  rw [parFor_chunks _ (k + 1) rowSize hr matrix hm (rowSched j) (hs j hj) (by
    intro i c c' hi hcl h
    rw [hjob i hi] at h
    exact henc _ _ _ _ _ hcl h)]
  constructor
  · rintro ⟨h1, h2⟩
    exact ⟨h1, fun r hr => by rw [← hjob r hr]; exact h2 r hr⟩
  · rintro ⟨h1, h2⟩
    exact ⟨h1, fun r hr => by rw [hjob r hr]; exact h2 r hr⟩

/-- The conditions under which the generator can be forked for a GGSW ciphertext. -/
def GgswRoom (w level k N : Nat) (g : EncGen) : Prop :=
  0 < level ∧ 0 < mB w k N ∧ g.mask.pos + level * ((k + 1) * mB w k N) ≤ g.mask.bound ∧
  g.noise.pos + level * ((k + 1) * nB N) ≤ g.noise.bound

theorem ggswFill_iff (enc : List (BitVec w) → EncGen → List (BitVec w) → Option (List (BitVec w)))
    (rowSize : Nat) (hr : 0 < rowSize) (key : List (BitVec w)) (N k b level : Nat) (hN : 0 < N)
    (henc : KeepsSize enc key N k rowSize) (msg : BitVec w) (g g' : EncGen) (sched : List Nat)
    (rowSched : Nat → List Nat) (hp : sched.Perm (List.range level))
    (hs : ∀ j, j < level → (rowSched j).Perm (List.range (k + 1)))
    (out res : List (BitVec w)) (ho : out.length = level * ((k + 1) * rowSize)) :
    ggswFill enc rowSize key N k b sched rowSched out msg g = some (res, g') ↔
      GgswRoom w level k N g ∧
      g' = { mask := g.mask.skip (level * ((k + 1) * mB w k N)),
             noise := g.noise.skip (level * ((k + 1) * nB N)) } ∧
      res.length = level * ((k + 1) * rowSize) ∧
      ∀ j, j < level → ∀ r, r < k + 1 →
        enc (rowPlaintext key N k (-msg * gadget w b (j + 1)) r)
          (g.slice (mB w k N) (nB N) (j * (k + 1) + r)) (block rowSize out (j * (k + 1) + r)) =
          some (block rowSize res (j * (k + 1) + r)) := by
  have hpos : 0 < (k + 1) * rowSize := Nat.mul_pos (by omega) hr
  have hdiv : out.length / ((k + 1) * rowSize) = level := by
    rw [ho, Nat.mul_div_cancel _ hpos]
  have hforkd : EncGen.forkGgswToGgswLevels g w level (k + 1) N =
      g.tryFork level ((k + 1) * mB w k N) ((k + 1) * nB N) := rfl
  simp only [ggswFill, hdiv, hforkd]
  by_cases hroom : GgswRoom w level k N g
  · have hroom' := hroom
    obtain ⟨r1, r2, r3, r4⟩ := hroom
    rw [encFork_eq g level _ _ ⟨r1, Nat.mul_pos (by omega) r2,
      Nat.mul_pos (by omega) (by unfold nB; omega), r3, r4⟩]
    simp only
    have key' := parFor_chunks (ggswLevelJob enc rowSize key N k b msg
      ((List.range level).map (g.slice ((k + 1) * mB w k N) ((k + 1) * nB N))) rowSched) level
      ((k + 1) * rowSize) hpos out ho sched hp (by
        intro i c c' hi hcl h
        exact ((ggswLevelJob_iff enc rowSize hr key N k b level r2 hN henc msg g rowSched hs i hi c c'
          hcl).1 h).1)
    constructor
    · intro h
      split at h
      · cases h
      · rename_i ms e
        simp only [Option.some.injEq, Prod.mk.injEq] at h
        obtain ⟨rfl, rfl⟩ := h
        obtain ⟨k1, k2⟩ := (key' ms.flatten).1 (by rw [e]; rfl)
        refine ⟨hroom', rfl, k1, fun j hj r hr' => ?_⟩
        have := ((ggswLevelJob_iff enc rowSize hr key N k b level r2 hN henc msg g rowSched hs j hj _ _
          (block_length _ _ _ (by rw [ho]; exact Nat.mul_le_mul_right _ hj))).1 (k2 j hj)).2 r hr'
        rwa [block_block _ _ _ _ _ hr', block_block _ _ _ _ _ hr'] at this
    · rintro ⟨_, rfl, h3, h4⟩
      have := (key' res).2 ⟨h3, fun j hj => by
        rw [ggswLevelJob_iff enc rowSize hr key N k b level r2 hN henc msg g rowSched hs j hj _ _
          (block_length _ _ _ (by rw [ho]; exact Nat.mul_le_mul_right _ hj))]
        refine ⟨block_length _ _ _ (by rw [h3]; exact Nat.mul_le_mul_right _ hj), fun r hr' => ?_⟩
        rw [block_block _ _ _ _ _ hr', block_block _ _ _ _ _ hr']
        exact h4 j hj r hr'⟩
      obtain ⟨ms, e1, e2⟩ := Option.map_eq_some_iff.1 this
      rw [e1]
      simp only [e2]
  · constructor
    · intro h
      split at h
      · cases h
      · rename_i gens g2 e
        obtain ⟨h1, h2, h3, h4, h5, _⟩ := encFork_ok e
        exact absurd ⟨h1, by
          rcases Nat.eq_zero_or_pos (mB w k N) with h0 | h0
          · rw [h0, Nat.mul_zero] at h2; omega
          · exact h0, h4, h5⟩ hroom
    · rintro ⟨h1, _⟩
      exact absurd h1 hroom

theorem keeps_rowEnc (f : GaussianFn w) (key : List (BitVec w)) (N k : Nat) (hN : 0 < N)
    (hk : KeyFits N k key) : KeepsSize (rowEnc f key N) key N k ((k + 1) * N) := by
  intro factor r g row row' hl h
  obtain ⟨x, hx, rfl⟩ := Option.map_eq_some_iff.1 h
  obtain ⟨ct, g'⟩ := x
  obtain ⟨mask, e, h1, _, h3, rfl⟩ := encryptGlwe_eq hx
  have hml : mask.length = k * N := by rw [h3, hl, Nat.add_mul, Nat.one_mul]; omega
  obtain ⟨a1, _⟩ := addMultisum_chunks N k hN e mask key (noiseTensor_length h1) hml hk
  simp only
  rw [List.length_append, hml, Poly.add, zipUpdate_length, a1, Nat.add_mul, Nat.one_mul]

theorem keeps_rowEncSeeded (f : GaussianFn w) (key : List (BitVec w)) (N k : Nat) (hN : 0 < N)
    (hk : KeyFits N k key) : KeepsSize (rowEncSeeded f key N) key N k N := by
  intro factor r g row row' hl h
  obtain ⟨x, hx, rfl⟩ := Option.map_eq_some_iff.1 h
  obtain ⟨ct, g'⟩ := x
  simp only [encryptSeededGlwe] at hx
  split at hx
  · cases hx
  · rename_i mask body g2 e1
    simp only [Option.some.injEq, Prod.mk.injEq] at hx
    obtain ⟨rfl, rfl⟩ := hx
    obtain ⟨e, h1, _, h3, rfl⟩ := fill_eq e1
    obtain ⟨a1, _⟩ := addMultisum_chunks N k hN e mask key (noiseTensor_length h1) (by rw [h3, hk]) hk
    simp only
    rw [Poly.add, zipUpdate_length, a1]

theorem rowPlaintext_length (key : List (BitVec w)) (N k : Nat) (hk : KeyFits N k key) (factor : BitVec w)
    (r : Nat) : (rowPlaintext key N k factor r).length = N := by
  unfold rowPlaintext
  split
  · rw [List.length_map, block_len N k r key hk ‹_›]
  · simp

end Verif.Glwe
