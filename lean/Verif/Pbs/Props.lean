import Verif.Pbs.Lemmas
import Verif.Glwe.Props
import Verif.Glwe.Props2
/-
Properties C27 (external product) and C28 (cmux).
-/
set_option linter.unusedSectionVars false
namespace Verif.Pbs
open Verif.Poly Verif.Glwe Verif.Decomp

variable {w : Nat}

/-- The exact transform is accurate with no error, for every number of products and digits of any size. -/
theorem exact_accurate (N M : Nat) (hN : 0 < N) (D : Int) : (exactTransform w N).Accurate N M D 0 := by
  intro out ps ho _ hp
  have main : ∀ (ps : List (List (BitVec w) × List (BitVec w))) (acc : List (BitVec w)),
      (∀ x ∈ ps, x.1.length = N ∧ x.2.length = N) → acc.length = N →
      (ps.foldl (fun acc x => Poly.addMul acc x.1 x.2) acc).length = N ∧
      toRq N (ps.foldl (fun acc x => Poly.addMul acc x.1 x.2) acc) =
        toRq N acc + (ps.map fun x => toRq N x.1 * toRq N x.2).sum := by
    intro ps
    induction ps with
    | nil => intro acc _ ha; simpa using ha
    | cons x ps ih =>
      intro acc hx ha
      obtain ⟨h1, h2⟩ := hx x (List.mem_cons_self ..)
      obtain ⟨a1, a2, _⟩ := addMul_spec N hN acc x.1 x.2 ha h1 h2
      obtain ⟨b1, b2⟩ := ih _ (fun y hy => hx y (List.mem_cons_of_mem _ hy)) a1
      refine ⟨b1, ?_⟩
      rw [List.foldl_cons, b2, a2, List.map_cons, List.sum_cons]; ring
  obtain ⟨m1, m2⟩ := main ps (List.replicate N 0#w) (fun x hx => ⟨(hp x hx).1, (hp x hx).2.1⟩) (by simp)
  refine ⟨by simp only [exactTransform, Poly.add, zipUpdate_length, ho], 0, small_zero N 0 le_rfl, ?_⟩
  simp only [exactTransform, id_eq]
  rw [toRq_add N _ _ (by rw [ho, m1]), m2,
    show toRq N (List.replicate N 0#w) = 0 from toRq_zero N N, zero_add, add_zero]

/-- The phase formula of an external product with a GGSW encryption of `μ`. -/
theorem external_phase_enc (N k b l : Nat) (h : ValidParams w b l)
    (key out ggsw ct res : List (BitVec w)) (μ : Rq (BitVec w) N) (err : Nat → Nat → Rq (BitVec w) N)
    (δ : Nat → Rq (BitVec w) N) (hc : CtFits N k ct) (hg : GgswEnc N k b l key ggsw μ err)
    (h3 : glwePhase N k key res = glwePhase N k key out +
        ∑ j ∈ Finset.range l, ∑ r ∈ Finset.range (k + 1),
          digitPoly N b l ct j r * glwePhase N k key (ggswRow N k ggsw j r) +
        ∑ p ∈ Finset.range (k + 1), rowFactor N k key p * δ p) :
    glwePhase N k key res =
        glwePhase N k key out + μ * glwePhase N k key (ct.map (closestRepresentable b l)) +
        ∑ j ∈ Finset.range l, ∑ r ∈ Finset.range (k + 1), digitPoly N b l ct j r * err j r +
        (δ k - ∑ i ∈ Finset.range k, δ i * toRq N (block N key i)) := by
  rw [h3]
  have e1 : ∑ j ∈ Finset.range l, ∑ r ∈ Finset.range (k + 1),
      digitPoly N b l ct j r * glwePhase N k key (ggswRow N k ggsw j r) =
      μ * glwePhase N k key (ct.map (closestRepresentable b l)) +
      ∑ j ∈ Finset.range l, ∑ r ∈ Finset.range (k + 1), digitPoly N b l ct j r * err j r := by
    have e2 : ∀ r ∈ Finset.range (k + 1), rowFactor N k key r *
        toRq N (block N (ct.map (closestRepresentable b l)) r) =
        ∑ j ∈ Finset.range l, rowFactor N k key r * (digitPoly N b l ct j r * 2 ^ (w - b * (j + 1))) := by
      intro r hr
      rw [← digitPoly_recompose N k b l h ct hc r (Finset.mem_range.1 hr), Finset.mul_sum]
    have e5 : glwePhase N k key (ct.map (closestRepresentable b l)) = ∑ j ∈ Finset.range l,
        ∑ r ∈ Finset.range (k + 1), rowFactor N k key r * (digitPoly N b l ct j r * 2 ^ (w - b * (j + 1))) := by
      rw [phase_eq N k key (ct.map _), Finset.sum_congr rfl e2, Finset.sum_comm]
    rw [e5, Finset.mul_sum, ← Finset.sum_add_distrib]
    refine Finset.sum_congr rfl fun j hj => ?_
    rw [Finset.mul_sum, ← Finset.sum_add_distrib]
    refine Finset.sum_congr rfl fun r hr => ?_
    have hr := Finset.mem_range.1 hr
    rw [hg.2 j (Finset.mem_range.1 hj) r (by omega)]
    ring
  rw [e1, Finset.sum_range_succ _ k]
  have e3 : ∑ p ∈ Finset.range k, rowFactor N k key p * δ p =
      - ∑ i ∈ Finset.range k, δ i * toRq N (block N key i) := by
    rw [← Finset.sum_neg_distrib]
    refine Finset.sum_congr rfl fun p hp => ?_
    rw [rowFactor, if_pos (Finset.mem_range.1 hp)]; ring
  have e4 : rowFactor N k key k = 1 := by simp [rowFactor]
  rw [e3, e4]
  ring

/-- C27: the external product of a GGSW encryption of `μ` (with errors `err`) by a ciphertext `ct` adds to
the phase of the output exactly `μ` times the phase of the rounded `ct`, plus the products of the digits of
`ct` (of absolute value at most `2^(b-1)`) by the errors of the GGSW, plus the errors of the transform. -/
theorem C27_external_product (T : Transform w) (N k b l : Nat) (hN : 0 < N) (D B : Int)
    (hT : T.Accurate N (l * (k + 1)) D B) (hD : 2 ^ (b - 1) ≤ D) (h : ValidParams w b l)
    (key out ggsw ct : List (BitVec w)) (μ : Rq (BitVec w) N) (err : Nat → Nat → Rq (BitVec w) N)
    (ho : CtFits N k out) (hc : CtFits N k ct) (hg : GgswEnc N k b l key ggsw μ err) :
    CtFits N k (externalProduct T N k b l out (convert T N ggsw) ct) ∧
    ∃ (dig : Nat → Nat → Rq (BitVec w) N) (δ : Nat → Rq (BitVec w) N),
      (∀ j r, j < l → r ≤ k → Small N (2 ^ (b - 1)) (dig j r)) ∧
      (∀ r, r ≤ k → ∑ j ∈ Finset.range l, dig j r * 2 ^ (w - b * (j + 1)) =
        toRq N (block N (ct.map (closestRepresentable b l)) r)) ∧
      (∀ p, p ≤ k → Small N B (δ p)) ∧
      glwePhase N k key (externalProduct T N k b l out (convert T N ggsw) ct) =
        glwePhase N k key out + μ * glwePhase N k key (ct.map (closestRepresentable b l)) +
        ∑ j ∈ Finset.range l, ∑ r ∈ Finset.range (k + 1), dig j r * err j r +
        (δ k - ∑ i ∈ Finset.range k, δ i * toRq N (block N key i)) := by
  obtain ⟨h1, δ, h2, h3⟩ := externalProduct_phase T N k b l hN D B hT hD h key out ggsw ct ho hc hg.1
  refine ⟨h1, digitPoly N b l ct, δ, fun j r hj hr => digitPoly_small N k b l h ct hc j r hj (by omega),
    fun r hr => digitPoly_recompose N k b l h ct hc r (by omega), fun p hp => h2 p (by omega), external_phase_enc N k b l h key out ggsw ct _ μ err δ hc hg h3⟩

theorem small_key_comb {N k : Nat} (hN : 0 < N) {S B : Int} {key : List (BitVec w)} (hk : KeyFits N k key)
    (hS : KeyBound S key) (δ : Nat → Rq (BitVec w) N) (hδ : ∀ p, p ≤ k → Small N B (δ p)) :
    Small N ((k * (N * S) + 1) * B) (δ k - ∑ i ∈ Finset.range k, δ i * toRq N (block N key i)) := by
  have h1 : Small N (k * (N * (B * S))) (∑ i ∈ Finset.range k, δ i * toRq N (block N key i)) := by
    apply small_sum_const
    intro i hi
    apply (hδ i (by omega)).mul hN
    apply small_toRq N _ (block_len N _ i _ hk hi)
    intro c hc
    exact hS c (List.mem_of_mem_drop (List.mem_of_mem_take hc))
  refine ((hδ k le_rfl).sub h1).mono (le_of_eq ?_)
  ring

/-- The rounding of the ciphertext changes its phase by a small error. -/
theorem rounding_error (N k b l : Nat) (hN : 0 < N) (h : ValidParams w b l) (S : Int)
    (key ct : List (BitVec w)) (hk : KeyFits N k key) (hS : KeyBound S key) (hc : CtFits N k ct) :
    ∃ ρ : Rq (BitVec w) N, Small N ((k * (N * S) + 1) * 2 ^ (w - b * l - 1)) ρ ∧
      glwePhase N k key (ct.map (closestRepresentable b l)) = glwePhase N k key ct + ρ := by
  refine ⟨toRq N (block N (ct.map fun x => closestRepresentable b l x - x) k) - ∑ i ∈ Finset.range k,
    toRq N (block N (ct.map fun x => closestRepresentable b l x - x) i) * toRq N (block N key i),
    small_key_comb hN hk hS (fun p => toRq N (block N (ct.map fun x => closestRepresentable b l x - x) p)) ?_, ?_⟩
  · intro p hp
    apply small_toRq N _ (block_len N _ p _ (by simpa using (show ct.length = _ from hc)) (by omega))
    intro c hc'
    obtain ⟨x, _, rfl⟩ := mem_block_map hc'
    obtain ⟨_, h1, h2⟩ := closest_signed b l h x
    have e : closestRepresentable b l x - x = ((-(signedDiff x (closestRepresentable b l x)) : Int) : BitVec w) := by
      rw [signedDiff]; push_cast; rw [BV.intCast_toInt]; ring
    rw [e]
    refine (abs_toInt_le _).trans ?_
    rw [abs_neg]
    exact abs_le.2 ⟨h1, h2.le⟩
  · have hb : ∀ p, p < k + 1 → toRq N (block N (ct.map (closestRepresentable b l)) p) =
        toRq N (block N ct p) + toRq N (block N (ct.map fun x => closestRepresentable b l x - x) p) := by
      intro p hp
      have hl := block_len N _ p ct hc hp
      have hl2 := block_len N _ p (ct.map fun x => closestRepresentable b l x - x)
        (by simpa using (show ct.length = _ from hc)) hp
      rw [← toRq_add N _ _ (by rw [hl, hl2]), Poly.add, zipUpdate_eq_zipWith _ _ _ (by rw [hl, hl2])]
      congr 1
      simp only [block, ← List.map_drop, ← List.map_take]
      generalize List.take N (List.drop (p * N) ct) = y
      rw [List.zipWith_map_right, List.zipWith_self]
      exact List.map_congr_left fun x _ => by ring
    rw [glwePhase, glwePhase, hb k (by omega)]
    have : ∀ i ∈ Finset.range k, toRq N (block N (ct.map (closestRepresentable b l)) i) * toRq N (block N key i) =
        toRq N (block N ct i) * toRq N (block N key i) +
        toRq N (block N (ct.map fun x => closestRepresentable b l x - x) i) * toRq N (block N key i) := by
      intro i hi
      rw [hb i (by have := Finset.mem_range.1 hi; omega)]; ring
    rw [Finset.sum_congr rfl this, Finset.sum_add_distrib]
    ring

/-- The error of an external product with an encryption of an integer constant. -/
theorem external_phase_bound (N k b l : Nat) (hN : 0 < N) (B S E : Int) (h : ValidParams w b l)
    (key out ggsw ct res : List (BitVec w)) (c : Int) (err : Nat → Nat → Rq (BitVec w) N)
    (hk : KeyFits N k key) (hS : KeyBound S key) (hc : CtFits N k ct)
    (hg : GgswEnc N k b l key ggsw (AdjoinRoot.of _ (c : BitVec w)) err)
    (hE : ∀ j r, j < l → r ≤ k → Small N E (err j r))
    (δ : Nat → Rq (BitVec w) N) (h3 : ∀ p, p ≤ k → Small N B (δ p))
    (hph : glwePhase N k key res = glwePhase N k key out +
        ∑ j ∈ Finset.range l, ∑ r ∈ Finset.range (k + 1),
          digitPoly N b l ct j r * glwePhase N k key (ggswRow N k ggsw j r) +
        ∑ p ∈ Finset.range (k + 1), rowFactor N k key p * δ p) :
    ∃ e : Rq (BitVec w) N, Small N (epBound w N k b l S E B |c|) e ∧
      glwePhase N k key res =
        glwePhase N k key out + AdjoinRoot.of _ (c : BitVec w) * glwePhase N k key ct + e := by
  have h4 := external_phase_enc N k b l h key out ggsw ct res _ err δ hc hg hph
  have h2 : ∀ j r, j < l → r ≤ k → Small N (2 ^ (b - 1)) (digitPoly N b l ct j r) :=
    fun j r hj hr => digitPoly_small N k b l h ct hc j r hj (by omega)
  generalize digitPoly N b l ct = dig at h2 h4
  obtain ⟨ρ, r1, r2⟩ := rounding_error N k b l hN h S key ct hk hS hc
  refine ⟨(∑ j ∈ Finset.range l, ∑ r ∈ Finset.range (k + 1), dig j r * err j r) +
    (δ k - ∑ i ∈ Finset.range k, δ i * toRq N (block N key i)) + AdjoinRoot.of _ (c : BitVec w) * ρ, ?_, ?_⟩
  · refine (((small_sum_const _ ((k + 1 : Nat) * (N * (2 ^ (b - 1) * E))) fun j hj => small_sum_const _ _
      fun r hr => (h2 j r hj (by omega)).mul hN (hE j r hj (by omega))).add (small_key_comb hN hk hS δ h3)).add
      (?_ : Small N (|c| * ((k * (N * S) + 1) * 2 ^ (w - b * l - 1))) _)).mono (le_of_eq ?_)
    · obtain ⟨z, z1, z2, z3⟩ := r1
      refine ⟨z.map (c * ·), by simp [z1], fun d hd => ?_, ?_⟩
      · obtain ⟨y, hy, rfl⟩ := List.mem_map.1 hd
        rw [abs_mul]
        exact mul_le_mul_of_nonneg_left (z2 y hy) (abs_nonneg c)
      · rw [z3, toRq_sum, toRq_sum, Finset.mul_sum]
        simp only [List.length_map]
        refine Finset.sum_congr rfl fun i _ => ?_
        rw [← mul_assoc, ← map_mul, getD_map_cast, getD_map_cast]
        congr 2
        simp only [List.getD_eq_getElem?_getD, List.getElem?_map]
        cases z[i]? <;> simp
    · rw [epBound]; push_cast; ring
  · rw [h4, r2]; ring

/-- C27, with an explicit bound: multiplying by an encryption of an integer constant `c`, the phase of the
output grows by `c * phase(ct)` up to the error `epBound`. -/
theorem C27_error_bound (T : Transform w) (N k b l : Nat) (hN : 0 < N) (D B S E : Int)
    (hT : T.Accurate N (l * (k + 1)) D B) (hD : 2 ^ (b - 1) ≤ D) (h : ValidParams w b l)
    (key out ggsw ct : List (BitVec w)) (c : Int) (err : Nat → Nat → Rq (BitVec w) N)
    (hk : KeyFits N k key) (hS : KeyBound S key) (ho : CtFits N k out) (hc : CtFits N k ct)
    (hg : GgswEnc N k b l key ggsw (AdjoinRoot.of _ (c : BitVec w)) err)
    (hE : ∀ j r, j < l → r ≤ k → Small N E (err j r)) :
    CtFits N k (externalProduct T N k b l out (convert T N ggsw) ct) ∧
    ∃ e : Rq (BitVec w) N, Small N (epBound w N k b l S E B |c|) e ∧
      glwePhase N k key (externalProduct T N k b l out (convert T N ggsw) ct) =
        glwePhase N k key out + AdjoinRoot.of _ (c : BitVec w) * glwePhase N k key ct + e := by
  obtain ⟨h1, δ, h2, h3⟩ := externalProduct_phase T N k b l hN D B hT hD h key out ggsw ct ho hc hg.1
  exact ⟨h1, external_phase_bound N k b l hN B S E h key out ggsw ct _ c err hk hS hc hg hE δ
    (fun p hp => h2 p (by omega)) h3⟩

/-- C27: with an exact transform, a noiseless GGSW and a ciphertext whose words are representable, the
external product is exact. -/
theorem C27_exact (N k b l : Nat) (hN : 0 < N) (h : ValidParams w b l)
    (key out ggsw ct : List (BitVec w)) (μ : Rq (BitVec w) N)
    (ho : CtFits N k out) (hc : CtFits N k ct) (hg : GgswEnc N k b l key ggsw μ (fun _ _ => 0))
    (hr : ∀ x ∈ ct, Representable b l x) :
    glwePhase N k key (externalProduct (exactTransform w N) N k b l out (convert (exactTransform w N) N ggsw) ct) =
      glwePhase N k key out + μ * glwePhase N k key ct := by
  obtain ⟨_, dig, δ, _, _, h3, h4⟩ := C27_external_product (exactTransform w N) N k b l hN (2 ^ (b - 1)) 0
    (exact_accurate N _ hN _) le_rfl h key out ggsw ct μ _ ho hc hg
  have hz : ∀ p, p ≤ k → δ p = 0 := by
    intro p hp
    obtain ⟨z, z1, z2, z3⟩ := h3 p hp
    rw [z3, show (z.map fun c : Int => (c : BitVec w)) = List.replicate N 0 from ?_, toRq_zero]
    rw [List.eq_replicate_iff]
    refine ⟨by simp [z1], fun x hx => ?_⟩
    obtain ⟨c, hc, rfl⟩ := List.mem_map.1 hx
    have : c = 0 := abs_eq_zero.1 (le_antisymm (z2 c hc) (abs_nonneg c))
    rw [this]; simp
  have hcl : ct.map (closestRepresentable b l) = ct := by
    conv_rhs => rw [← List.map_id ct]
    exact List.map_congr_left fun x hx => (C08_closest_representable b l h x).2.2.2 (hr x hx)
  rw [h4, hcl, hz k le_rfl]
  simp only [mul_zero, Finset.sum_const_zero, add_zero, zero_sub]
  rw [Finset.sum_eq_zero (fun i hi => by
    rw [hz i (by have := Finset.mem_range.1 hi; omega), zero_mul])]
  ring

/-- C27: the external product of the NTT backend, which rounds its input twice, is the same function. -/
theorem C27_ntt_rounding (T : Transform w) (N k b l : Nat) (h : ValidParams w b l)
    (out ct : List (BitVec w)) (fggsw : List T.E) :
    externalProductNtt T N k b l out fggsw ct = externalProduct T N k b l out fggsw ct := by
  rw [externalProductNtt, externalProduct, decomposeTensor, List.map_map]
  congr 4
  apply List.map_congr_left
  intro x _
  exact (C08_closest_representable b l h _).2.2.2 (C08_closest_representable b l h x).1

/-- C27: the discarding external product does not depend on the previous content of the output. -/
theorem C27_discarding (T : Transform w) (N k b l : Nat) (out out' ct : List (BitVec w)) (fggsw : List T.E)
    (hl : out.length = out'.length) :
    discardExternalProduct T N k b l out fggsw ct = discardExternalProduct T N k b l out' fggsw ct := by
  rw [discardExternalProduct, discardExternalProduct, List.map_const', List.map_const', hl]

/-- C27: the discarding external product has phase `c * phase(ct)` up to `epBound`. -/
theorem C27_discarding_phase (T : Transform w) (N k b l : Nat) (hN : 0 < N) (D B S E : Int)
    (hT : T.Accurate N (l * (k + 1)) D B) (hD : 2 ^ (b - 1) ≤ D) (h : ValidParams w b l)
    (key out ggsw ct : List (BitVec w)) (c : Int) (err : Nat → Nat → Rq (BitVec w) N)
    (hk : KeyFits N k key) (hS : KeyBound S key) (ho : CtFits N k out) (hc : CtFits N k ct)
    (hg : GgswEnc N k b l key ggsw (AdjoinRoot.of _ (c : BitVec w)) err)
    (hE : ∀ j r, j < l → r ≤ k → Small N E (err j r)) :
    ∃ e : Rq (BitVec w) N, Small N (epBound w N k b l S E B |c|) e ∧
      glwePhase N k key (discardExternalProduct T N k b l out (convert T N ggsw) ct) =
        AdjoinRoot.of _ (c : BitVec w) * glwePhase N k key ct + e := by
  obtain ⟨_, e, h1, h2⟩ := C27_error_bound T N k b l hN D B S E hT hD h key (out.map fun _ => 0#w) ggsw ct c err
    hk hS (by simpa [CtFits] using ho) hc hg hE
  refine ⟨e, h1, ?_⟩
  rw [discardExternalProduct, h2]
  have : glwePhase N k key (out.map fun _ => 0#w) = 0 := by
    have hz : ∀ p, toRq N (block N (out.map fun _ => 0#w) p) = 0 := by
      intro p
      rw [List.map_const', block, List.drop_replicate, List.take_replicate]
      exact toRq_zero N _
    rw [glwePhase, hz, Finset.sum_eq_zero (fun i _ => by rw [hz, zero_mul]), sub_zero]
  rw [this, zero_add]

/-! ### C28 -/

theorem phase_sub (N k : Nat) (key a b : List (BitVec w)) (ha : CtFits N k a) (hb : CtFits N k b) :
    glwePhase N k key (zipUpdate (fun c1 c0 => c1 - c0) a b) = glwePhase N k key a - glwePhase N k key b := by
  have hblk : ∀ p, p < k + 1 → toRq N (block N (zipUpdate (fun c1 c0 => c1 - c0) a b) p) =
      toRq N (block N a p) - toRq N (block N b p) := by
    intro p hp
    have hla := block_len N _ p a ha hp
    have hlb := block_len N _ p b hb hp
    rw [← toRq_sub N _ _ (by rw [hla, hlb]), Poly.sub,
      zipUpdate_eq_zipWith _ _ (block N b p) (by rw [hla, hlb]),
      zipUpdate_eq_zipWith _ a b (le_of_eq ((show a.length = _ from ha).trans (show b.length = _ from hb).symm))]
    congr 1
    simp only [block, List.drop_zipWith, List.take_zipWith]
  rw [glwePhase, glwePhase, glwePhase, hblk k (by omega)]
  have : ∀ i ∈ Finset.range k, toRq N (block N (zipUpdate (fun c1 c0 => c1 - c0) a b) i) * toRq N (block N key i) =
      toRq N (block N a i) * toRq N (block N key i) - toRq N (block N b i) * toRq N (block N key i) := by
    intro i hi
    rw [hblk i (by have := Finset.mem_range.1 hi; omega)]; ring
  rw [Finset.sum_congr rfl this, Finset.sum_sub_distrib]
  ring

theorem of_bit (N : Nat) (s : Bool) :
    (AdjoinRoot.of _ (((if s then 1 else 0 : Int)) : BitVec w) : Rq (BitVec w) N) = if s then 1 else 0 := by
  cases s
  · rw [if_neg (by decide), if_neg (by decide), Int.cast_zero, map_zero]
  · rw [if_pos rfl, if_pos rfl, Int.cast_one, map_one]

/-- C28: the CMUX with a GGSW encryption of the bit `s` leaves in `ct0` a ciphertext whose phase is the one
of `ct1` if `s = 1` and of `ct0` if `s = 0`, up to the error of the external product, and in `ct1` the
difference. -/
theorem C28_cmux (T : Transform w) (N k b l : Nat) (hN : 0 < N) (D B S E : Int)
    (hT : T.Accurate N (l * (k + 1)) D B) (hD : 2 ^ (b - 1) ≤ D) (h : ValidParams w b l)
    (key ggsw ct0 ct1 : List (BitVec w)) (s : Bool) (err : Nat → Nat → Rq (BitVec w) N)
    (hk : KeyFits N k key) (hS : KeyBound S key) (h0 : CtFits N k ct0) (h1 : CtFits N k ct1)
    (hg : GgswEnc N k b l key ggsw (if s then 1 else 0) err)
    (hE : ∀ j r, j < l → r ≤ k → Small N E (err j r)) :
    CtFits N k (cmuxFft T N k b l (convert T N ggsw) ct0 ct1) ∧
    (∃ e : Rq (BitVec w) N, Small N (epBound w N k b l S E B (if s then 1 else 0)) e ∧
      glwePhase N k key (cmuxFft T N k b l (convert T N ggsw) ct0 ct1) =
        (if s then glwePhase N k key ct1 else glwePhase N k key ct0) + e) ∧
    cmuxNtt T N k b l (convert T N ggsw) ct0 ct1 = cmuxFft T N k b l (convert T N ggsw) ct0 ct1 := by
  have hsub : CtFits N k (zipUpdate (fun c1 c0 => c1 - c0) ct1 ct0) := by
    rw [CtFits, zipUpdate_length]; exact h1
  have hg' : GgswEnc N k b l key ggsw (AdjoinRoot.of _ (((if s then 1 else 0 : Int)) : BitVec w)) err := by
    rw [of_bit]; exact hg
  obtain ⟨a1, e, a2, a3⟩ := C27_error_bound T N k b l hN D B S E hT hD h key ct0 ggsw _ _ err hk hS h0 hsub hg' hE
  refine ⟨a1, ⟨e, ?_, ?_⟩, ?_⟩
  · convert a2 using 2
    cases s <;> simp
  · rw [cmuxFft, cmux, a3, phase_sub N k key ct1 ct0 h1 h0, of_bit]
    cases s
    · simp
    · simp
  · rw [cmuxNtt, cmuxFft, cmux, cmux, C27_ntt_rounding T N k b l h]

end Verif.Pbs
