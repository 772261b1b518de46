import Verif.Gsw.Model
import Verif.Gsw.Spec
import Verif.Lwe.Props2
import Verif.Lwe.Props3
import Verif.Glwe.Ggsw2
/-
Closed form of the GSW encryption; phases of the external product.
-/
set_option linter.unusedSectionVars false
namespace Verif.Gsw
open Verif.Random Verif.Lwe Verif.Glwe

variable {w : Nat}

/-- Mask bytes of an LWE ciphertext. -/
abbrev mL (w n : Nat) : Nat := n * (w / 8)
/-- Noise bytes reserved for an LWE ciphertext. -/
abbrev nL : Nat := 768

/-- What a row of a level must contain. -/
def RowOk (f : GaussianFn w) (key : List (BitVec w)) (d : BitVec w) (r : Nat) (g : EncGen)
    (row res : List (BitVec w)) : Prop :=
  ∃ ct g', encryptLwe f key row 0#w g = some (ct, g') ∧ addDiagonal d r ct = some res

theorem addDiagonal_length {d : BitVec w} {r : Nat} {row res : List (BitVec w)}
    (h : addDiagonal d r row = some res) : res.length = row.length := by
  unfold addDiagonal at h
  split at h
  · cases h; simp
  · cases h

theorem RowOk.length {f : GaussianFn w} {key : List (BitVec w)} {d : BitVec w} {r : Nat} {g : EncGen}
    {row res : List (BitVec w)} (ho : Fits key row) (h : RowOk f key d r g row res) :
    Fits key res := by
  obtain ⟨ct, g', h1, h2⟩ := h
  obtain ⟨_, _, hf, _⟩ := encryptLwe_phase ho h1
  rw [Fits, addDiagonal_length h2]; exact hf

theorem gswRowJob_iff (f : GaussianFn w) (key : List (BitVec w)) (d : BitVec w) (gens : List EncGen)
    (r : Nat) (g : EncGen) (hg : gens[r]? = some g) (row res : List (BitVec w)) :
    gswRowJob f key d gens r row = some res ↔ RowOk f key d r g row res := by
  simp only [gswRowJob, hg, RowOk]
  cases h : encryptLwe f key row 0#w g with
  | none => simp
  | some x => obtain ⟨ct, g'⟩ := x; simp

theorem gswLevelJob_iff (bld : Csprng.Build) (f : GaussianFn w) (key : List (BitVec w)) (b level : Nat)
    (hc : 0 < mL w key.length) (msg : BitVec w) (g : EncGen)
    (rowSched : Nat → List Nat) (hs : ∀ j, j < level → (rowSched j).Perm (List.range (key.length + 1)))
    (j : Nat) (hj : j < level) (matrix res : List (BitVec w))
    (hm : matrix.length = (key.length + 1) * (key.length + 1)) :
    gswLevelJob bld f key b msg
        ((List.range level).map (g.slice ((key.length + 1) * mL w key.length) ((key.length + 1) * nL)))
        rowSched j matrix = some res ↔
      res.length = (key.length + 1) * (key.length + 1) ∧ ∃ d, gswFactor bld b (j + 1) msg = some d ∧
        ∀ r, r < key.length + 1 →
          RowOk f key d r (g.slice (mL w key.length) nL (j * (key.length + 1) + r))
            (block (key.length + 1) matrix r) (block (key.length + 1) res r) := by
  have hget : ((List.range level).map
      (g.slice ((key.length + 1) * mL w key.length) ((key.length + 1) * nL)))[j]? =
      some (g.slice ((key.length + 1) * mL w key.length) ((key.length + 1) * nL) j) := by simp [hj]
  have hfork := encFork_eq (g.slice ((key.length + 1) * mL w key.length) ((key.length + 1) * nL) j)
    (key.length + 1) (mL w key.length) nL
    ⟨by omega, hc, by unfold nL; omega, by
      simp only [EncGen.slice]; rw [Nat.add_mul j, Nat.one_mul]; omega, by
      simp only [EncGen.slice]; rw [Nat.add_mul j, Nat.one_mul]; omega⟩
  have hforkd : EncGen.forkGswLevelToLwe
        (g.slice ((key.length + 1) * mL w key.length) ((key.length + 1) * nL) j) w (key.length + 1) =
      EncGen.tryFork (g.slice ((key.length + 1) * mL w key.length) ((key.length + 1) * nL) j)
        (key.length + 1) (mL w key.length) nL := rfl
  simp only [gswLevelJob, hget, hforkd, hfork]
  cases hd : gswFactor bld b (j + 1) msg with
  | none => simp
  | some d =>
    have hrg : ∀ r, r < key.length + 1 → ((List.range (key.length + 1)).map
          ((g.slice ((key.length + 1) * mL w key.length) ((key.length + 1) * nL) j).slice
            (mL w key.length) nL))[r]? =
        some (g.slice (mL w key.length) nL (j * (key.length + 1) + r)) := by
      intro r hr
      rw [← EncGen.slice_slice]; simp [hr]
    simp only
    rw [parFor_chunks _ (key.length + 1) (key.length + 1) (by omega) matrix hm (rowSched j) (hs j hj) (by
      intro i c c' hi hcl h
      rw [gswRowJob_iff f key d _ i _ (hrg i hi)] at h
      exact h.length hcl)]
    constructor
    · rintro ⟨h1, h2⟩
      exact ⟨h1, d, rfl, fun r hr => (gswRowJob_iff f key d _ r _ (hrg r hr) _ _).1 (h2 r hr)⟩
    · rintro ⟨h1, d', hd', h2⟩
      cases hd'
      exact ⟨h1, fun r hr => (gswRowJob_iff f key d _ r _ (hrg r hr) _ _).2 (h2 r hr)⟩

/-- The conditions under which the generator can be forked for a GSW ciphertext. -/
def GswRoom (w level n : Nat) (g : EncGen) : Prop :=
  0 < level ∧ 0 < mL w n ∧ g.mask.pos + level * ((n + 1) * mL w n) ≤ g.mask.bound ∧
  g.noise.pos + level * ((n + 1) * nL) ≤ g.noise.bound

theorem parEncryptGsw_iff (bld : Csprng.Build) (f : GaussianFn w) (key : List (BitVec w)) (b level : Nat)
    (msg : BitVec w) (g g' : EncGen) (sched : List Nat) (rowSched : Nat → List Nat)
    (hp : sched.Perm (List.range level))
    (hs : ∀ j, j < level → (rowSched j).Perm (List.range (key.length + 1)))
    (out res : List (BitVec w)) (ho : out.length = level * ((key.length + 1) * (key.length + 1))) :
    parEncryptGsw bld f key b sched rowSched out msg g = some (res, g') ↔
      GswRoom w level key.length g ∧
      g' = { mask := g.mask.skip (level * ((key.length + 1) * mL w key.length)),
             noise := g.noise.skip (level * ((key.length + 1) * nL)) } ∧
      res.length = level * ((key.length + 1) * (key.length + 1)) ∧
      ∀ j, j < level → ∃ d, gswFactor bld b (j + 1) msg = some d ∧ ∀ r, r < key.length + 1 →
        RowOk f key d r (g.slice (mL w key.length) nL (j * (key.length + 1) + r))
          (block (key.length + 1) out (j * (key.length + 1) + r))
          (block (key.length + 1) res (j * (key.length + 1) + r)) := by
  have hpos : 0 < (key.length + 1) * (key.length + 1) := Nat.mul_pos (by omega) (by omega)
  have hdiv : out.length / ((key.length + 1) * (key.length + 1)) = level := by
    rw [ho, Nat.mul_div_cancel _ hpos]
  have hforkd : EncGen.forkGswToGswLevels g w level (key.length + 1) =
      g.tryFork level ((key.length + 1) * mL w key.length) ((key.length + 1) * nL) := rfl
  simp only [parEncryptGsw, hdiv, hforkd]
  by_cases hroom : GswRoom w level key.length g
  · have hroom' := hroom
    obtain ⟨r1, r2, r3, r4⟩ := hroom
    rw [encFork_eq g level _ _ ⟨r1, Nat.mul_pos (by omega) r2,
      Nat.mul_pos (by omega) (by unfold nL; omega), r3, r4⟩]
    simp only
    have key' := parFor_chunks (gswLevelJob bld f key b msg
      ((List.range level).map (g.slice ((key.length + 1) * mL w key.length) ((key.length + 1) * nL)))
      rowSched) level ((key.length + 1) * (key.length + 1)) hpos out ho sched hp (by
        intro i c c' hi hcl h
        exact ((gswLevelJob_iff bld f key b level r2 msg g rowSched hs i hi c c' hcl).1 h).1)
    constructor
    · intro h
      split at h
      · cases h
      · rename_i ms e
        simp only [Option.some.injEq, Prod.mk.injEq] at h
        obtain ⟨rfl, rfl⟩ := h
        obtain ⟨k1, k2⟩ := (key' ms.flatten).1 (by rw [e]; rfl)
        refine ⟨hroom', rfl, k1, fun j hj => ?_⟩
        obtain ⟨_, d, hd, hh⟩ := (gswLevelJob_iff bld f key b level r2 msg g rowSched hs j hj _ _
          (block_length _ _ _ (by rw [ho]; exact Nat.mul_le_mul_right _ hj))).1 (k2 j hj)
        refine ⟨d, hd, fun r hr => ?_⟩
        have := hh r hr
        rwa [block_block _ _ _ _ _ hr, block_block _ _ _ _ _ hr] at this
    · rintro ⟨_, rfl, h3, h4⟩
      have := (key' res).2 ⟨h3, fun j hj => by
        rw [gswLevelJob_iff bld f key b level r2 msg g rowSched hs j hj _ _
          (block_length _ _ _ (by rw [ho]; exact Nat.mul_le_mul_right _ hj))]
        obtain ⟨d, hd, hh⟩ := h4 j hj
        refine ⟨block_length _ _ _ (by rw [h3]; exact Nat.mul_le_mul_right _ hj), d, hd, fun r hr' => ?_⟩
        rw [block_block _ _ _ _ _ hr', block_block _ _ _ _ _ hr']
        exact hh r hr'⟩
      obtain ⟨ms, e1, e2⟩ := Option.map_eq_some_iff.1 this
      rw [e1]
      simp only [e2]
  · constructor
    · intro h
      split at h
      · cases h
      · rename_i gens g2 e
        obtain ⟨h1, h2, h3, h4, h5, _⟩ := encFork_ok e
        exact absurd ⟨h1, by
          rcases Nat.eq_zero_or_pos (mL w key.length) with h0 | h0
          · rw [h0, Nat.mul_zero] at h2; omega
          · exact h0, h4, h5⟩ hroom
    · rintro ⟨h1, _⟩
      exact absurd h1 hroom

theorem encryptGsw_eq_par (bld : Csprng.Build) (f : GaussianFn w) (key : List (BitVec w)) (b level : Nat)
    (out : List (BitVec w)) (msg : BitVec w) (g : EncGen)
    (ho : out.length = level * ((key.length + 1) * (key.length + 1))) :
    encryptGsw bld f key b out msg g =
      parEncryptGsw bld f key b (List.range level) (fun _ => List.range (key.length + 1)) out msg g := by
  rw [encryptGsw, ho, Nat.mul_div_cancel _ (Nat.mul_pos (by omega) (by omega))]

/-! ### Phases -/

/-- The phase as a sum over all the words of the ciphertext. -/
theorem phase_rows (s ct : List (BitVec w)) :
    phase s ct = ∑ r ∈ Finset.range (s.length + 1), rowFactor s r * ct.getD r 0 := by
  rw [Finset.sum_range_succ, phase]
  have e : rowFactor s s.length = 1 := by simp [rowFactor]
  have : ∑ r ∈ Finset.range s.length, rowFactor s r * ct.getD r 0 =
      ∑ i ∈ Finset.range s.length, -(ct.getD i 0 * s.getD i 0) :=
    Finset.sum_congr rfl fun i hi => by
      rw [rowFactor, if_pos (Finset.mem_range.1 hi)]; ring
  rw [this, Finset.sum_neg_distrib, e]; ring

theorem addDiagonal_phase {s row res : List (BitVec w)} {d : BitVec w} {r : Nat} (hr : r < s.length + 1)
    (hf : Fits s row) (h : addDiagonal d r row = some res) :
    phase s res = phase s row + d * rowFactor s r := by
  unfold addDiagonal at h
  split at h
  · cases h
    rename_i hlt
    rw [phase_rows, phase_rows]
    have : ∀ i ∈ Finset.range (s.length + 1), rowFactor s i * (row.modify r fun x => x + d).getD i 0 =
        rowFactor s i * row.getD i 0 + (if i = r then d * rowFactor s r else 0) := by
      intro i hi
      have hi' : i < row.length := by rw [hf]; exact Finset.mem_range.1 hi
      have e : (row.modify r fun x => x + d).getD i 0 = row.getD i 0 + (if i = r then d else 0) := by
        simp only [List.getD_eq_getElem?_getD, List.getElem?_modify, List.getElem?_eq_getElem hi']
        by_cases hir : i = r
        · simp [hir]
        · have : ¬ r = i := fun h => hir h.symm
          simp [hir, this]
      rw [e]
      by_cases hir : i = r
      · simp only [hir, if_true]; ring
      · simp only [hir, if_false]; ring
    rw [Finset.sum_congr rfl this, Finset.sum_add_distrib, Finset.sum_ite_eq' _ r,
      if_pos (Finset.mem_range.2 hr)]
  · cases h

theorem gswFactor_eq {bld : Csprng.Build} {b lev : Nat} {msg d : BitVec w}
    (h : gswFactor bld b lev msg = some d) : d = msg * ((2 ^ (w - b * lev) : Nat) : BitVec w) := by
  have e : (gadget w b lev) = ((2 ^ (w - b * lev) : Nat) : BitVec w) := by
    rw [gadget_eq]; push_cast; rfl
  unfold gswFactor at h
  cases bld
  · simp only at h
    split at h
    · cases h; rw [e]
    · cases h
  · cases h; rw [e]

theorem gadget_toNat (b lev : Nat) (h1 : 0 < b * lev) (h2 : b * lev ≤ w) :
    (gadget w b lev).toNat = 2 ^ (w - b * lev) := by
  rw [gadget, BitVec.toNat_shiftLeft, BitVec.toNat_ofNat, Nat.mod_eq_of_lt (Nat.one_lt_two_pow (by omega)),
    Nat.shiftLeft_eq, one_mul, Nat.mod_eq_of_lt (Nat.pow_lt_pow_right (by omega) (by omega))]

/-- With overflow checks, the factor of level `lev` is computed exactly when the message is below
`2^(b·lev)`. -/
theorem gswFactor_debug (b lev : Nat) (h1 : 0 < b * lev) (h2 : b * lev ≤ w) (msg : BitVec w) :
    (gswFactor .debug b lev msg).isSome ↔ msg.toNat < 2 ^ (b * lev) := by
  have : msg.toNat * 2 ^ (w - b * lev) < 2 ^ w ↔ msg.toNat < 2 ^ (b * lev) := by
    have e : (2 : Nat) ^ w = 2 ^ (b * lev) * 2 ^ (w - b * lev) := by rw [← pow_add]; congr 1; omega
    rw [e, Nat.mul_lt_mul_right (by positivity)]
  simp only [gswFactor, gadget_toNat b lev h1 h2, this]
  split <;> simp [*]

/-! ### External product -/

theorem addRows_phase (s acc matrix digits : List (BitVec w)) (ha : Fits s acc)
    (hm : matrix.length = (s.length + 1) * (s.length + 1)) (hd : digits.length = s.length + 1) :
    Fits s (addRows (s.length + 1) acc matrix digits) ∧
    phase s (addRows (s.length + 1) acc matrix digits) = phase s acc +
      ∑ r ∈ Finset.range (s.length + 1), phase s (block (s.length + 1) matrix r) * digits.getD r 0 := by
  have hz : (chunks (s.length + 1) matrix).zip digits =
      (List.range (s.length + 1)).map fun r => (block (s.length + 1) matrix r, digits.getD r 0) := by
    rw [zip_eq_map_range _ _ [] 0 (by rw [chunks_length _ (by omega) _ _ hm, hd]),
      chunks_length _ (by omega) _ _ hm]
    apply List.map_congr_left
    intro i hi
    rw [chunks_eq _ (by omega) _ _ hm]
    simp [List.getD_eq_getElem?_getD, List.getElem?_range (List.mem_range.1 hi)]
  have key := foldl_measure
    (fun (acc : List (BitVec w)) (q : List (BitVec w) × BitVec w) =>
      zipUpdate (fun a c => a + c * q.2) acc q.1)
    (Fits s) (phase s) (fun q => phase s q.1 * q.2)
    ((chunks (s.length + 1) matrix).zip digits) acc ha (by
      intro st q hq hst
      have hq' : Fits s q.1 := by
        rw [hz] at hq
        obtain ⟨j, hj, rfl⟩ := List.mem_map.1 hq
        have := List.mem_range.1 hj
        apply block_length
        rw [hm]
        exact Nat.mul_le_mul_right _ (by omega)
      exact ⟨fits_zipUpdate _ hst, phase_mulAdd _ hst hq'⟩)
  refine ⟨key.1, ?_⟩
  rw [addRows, key.2, hz, List.map_map, list_sum_range]
  rfl

theorem externalProduct_phase (b l : Nat) (s gsw out lwe : List (BitVec w))
    (hg : gsw.length = l * ((s.length + 1) * (s.length + 1))) (ho : Fits s out) (hl : Fits s lwe) :
    Fits s (externalProduct b (s.length + 1) gsw out lwe) ∧
    phase s (externalProduct b (s.length + 1) gsw out lwe) = phase s out +
      ∑ j ∈ Finset.range l, ∑ r ∈ Finset.range (s.length + 1),
        phase s (block (s.length + 1) gsw ((l - 1 - j) * (s.length + 1) + r)) *
          ksDigit b l (lwe.getD r 0) j := by
  have hpos : 0 < (s.length + 1) * (s.length + 1) := Nat.mul_pos (by omega) (by omega)
  have hdiv : gsw.length / ((s.length + 1) * (s.length + 1)) = l := by rw [hg, Nat.mul_div_cancel _ hpos]
  have hz : (chunks ((s.length + 1) * (s.length + 1)) gsw).reverse.zip
      (Decomp.decomposeTensor b l (lwe.map (Decomp.closestRepresentable b l))).terms =
      (List.range l).map fun j => (block ((s.length + 1) * (s.length + 1)) gsw (l - 1 - j),
        (Decomp.TTerm.mk (l - j) b (lwe.map fun x => ksDigit b l x j))) := by
    rw [chunks_eq _ hpos _ _ hg, Decomp.decomposeTensor_terms, zip_reverse_map]
    simp only [List.map_map]
    rfl
  have key := foldl_measure
    (fun (acc : List (BitVec w)) (p : List (BitVec w) × Decomp.TTerm w) =>
      addRows (s.length + 1) acc p.1 p.2.tensor)
    (Fits s) (phase s) (fun p => ∑ r ∈ Finset.range (s.length + 1),
      phase s (block (s.length + 1) p.1 r) * p.2.tensor.getD r 0)
    ((List.range l).map fun j => (block ((s.length + 1) * (s.length + 1)) gsw (l - 1 - j),
        (Decomp.TTerm.mk (l - j) b (lwe.map fun x => ksDigit b l x j)))) out ho (by
      intro st p hp hst
      obtain ⟨j, hj, rfl⟩ := List.mem_map.1 hp
      have := List.mem_range.1 hj
      refine addRows_phase s st _ _ hst ?_ (by rw [List.length_map]; exact hl)
      apply block_length
      rw [hg]
      exact Nat.mul_le_mul_right _ (by omega))
  have hdef : externalProduct b (s.length + 1) gsw out lwe =
      ((List.range l).map fun j => (block ((s.length + 1) * (s.length + 1)) gsw (l - 1 - j),
        (Decomp.TTerm.mk (l - j) b (lwe.map fun x => ksDigit b l x j)))).foldl
        (fun acc p => addRows (s.length + 1) acc p.1 p.2.tensor) out := by
    simp only [externalProduct, hdiv, hz]
  rw [hdef]
  refine ⟨key.1, ?_⟩
  rw [key.2, List.map_map, list_sum_range]
  congr 1
  apply Finset.sum_congr rfl
  intro j _
  apply Finset.sum_congr rfl
  intro r hr
  have hr := Finset.mem_range.1 hr
  simp only
  rw [block_block _ _ _ _ _ hr]
  congr 1
  have hlt : r < lwe.length := by rw [hl]; exact hr
  simp [List.getD_eq_getElem?_getD, List.getElem?_eq_getElem hlt]

end Verif.Gsw
