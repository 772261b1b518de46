import Verif.Pks.Model
import Verif.Pks.Spec
import Verif.Pbs.Props2
import Verif.Lwe.Props2
/-
Lemmas on the packing keyswitches.
-/
set_option linter.unusedSectionVars false
namespace Verif.Pks
open Verif.Random Verif.Poly Verif.Glwe Verif.Decomp

variable {w : Nat}

theorem const_add {R : Type} [CommRing R] (N : Nat) (x y : R) : const N (x + y) = const N x + const N y := by
  simp [const]
theorem const_sub {R : Type} [CommRing R] (N : Nat) (x y : R) : const N (x - y) = const N x - const N y := by
  simp [const]
theorem const_mul {R : Type} [CommRing R] (N : Nat) (x y : R) : const N (x * y) = const N x * const N y := by
  simp [const]
theorem const_zero {R : Type} [CommRing R] (N : Nat) : const N (0 : R) = 0 := by simp [const]
theorem const_int {R : Type} [CommRing R] (N : Nat) (z : Int) : const N (z : R) = (z : Rq R N) := by
  simp [const]
theorem const_nat {R : Type} [CommRing R] (N : Nat) (z : Nat) : const N (z : R) = (z : Rq R N) := by
  simp [const]
theorem const_sum {R : Type} [CommRing R] (N : Nat) {ι : Type} (s : Finset ι) (f : ι → R) :
    const N (∑ i ∈ s, f i) = ∑ i ∈ s, const N (f i) := by simp [const]

/-- The class of the list with `x` in front of zeros. -/
theorem toRq_const {R : Type} [CommRing R] (N m : Nat) (x : R) :
    toRq N (x :: List.replicate m 0) = const N x := by
  rw [toRq, toPoly, Finset.sum_eq_single 0]
  · simp [const]
  · intro i _ hi
    obtain ⟨j, rfl⟩ : ∃ j, i = j + 1 := ⟨i - 1, by omega⟩
    have : (x :: List.replicate m (0 : R)).getD (j + 1) 0 = 0 := by
      rw [List.getD_eq_getElem?_getD, List.getElem?_cons_succ, List.getElem?_replicate]
      split <;> rfl
    rw [this]; simp
  · intro h; simp at h

/-- Multiplying all coefficients by a constant. -/
theorem toRq_map_mul {R : Type} [CommRing R] (N : Nat) (p : List R) (d : R) :
    toRq N (p.map fun c => c * d) = toRq N p * const N d := by
  simp only [toRq, toPoly, const, List.length_map, map_sum, map_mul, AdjoinRoot.of]
  rw [Finset.sum_mul]
  refine Finset.sum_congr rfl fun i _ => ?_
  have : (p.map fun c => c * d).getD i 0 = p.getD i 0 * d := by
    simp only [List.getD_eq_getElem?_getD, List.getElem?_map]
    cases p[i]? <;> simp
  rw [this]
  simp only [map_mul, RingHom.comp_apply]
  ring

theorem small_int_mul {R : Type} [CommRing R] {N : Nat} (z : Int) {A : Int} {x : Rq R N}
    (hx : Small N A x) : Small N (|z| * A) ((z : Rq R N) * x) := by
  obtain ⟨u, h1, h2, rfl⟩ := hx
  refine ⟨u.map fun c => c * z, by simp [h1], fun c hc => ?_, ?_⟩
  · obtain ⟨v, hv, rfl⟩ := List.mem_map.1 hc
    rw [abs_mul, mul_comm]
    exact mul_le_mul_of_nonneg_left (h2 v hv) (abs_nonneg _)
  · rw [← const_int, mul_comm, ← toRq_map_mul, List.map_map, List.map_map]
    congr 1
    apply List.map_congr_left
    intro v _
    simp

theorem block_subElementMul (N i : Nat) (out ct : List (BitVec w)) (hl : out.length = ct.length) (d : BitVec w) :
    block N (Lwe.subElementMul out ct d) i =
      Poly.sub (block N out i) ((block N ct i).map fun c => c * d) := by
  rw [Lwe.subElementMul, Poly.sub, zipUpdate_eq_zipWith _ _ _ hl.le, zipUpdate_eq_zipWith]
  · simp only [block, List.drop_zipWith, List.take_zipWith,
      List.zipWith_map_right]
  · simp [block, hl]

theorem fits_subElementMul {N k : Nat} {out ct : List (BitVec w)} (ho : CtFits N k out) (d : BitVec w) :
    CtFits N k (Lwe.subElementMul out ct d) := by
  rw [CtFits, Lwe.subElementMul, zipUpdate_length]; exact ho

theorem phase_subElementMul {N k : Nat} (key : List (BitVec w)) {out ct : List (BitVec w)}
    (ho : CtFits N k out) (hc : CtFits N k ct) (d : BitVec w) :
    glwePhase N k key (Lwe.subElementMul out ct d) =
      glwePhase N k key out + -(glwePhase N k key ct * const N d) := by
  have hb : ∀ i, i < k + 1 → toRq N (block N (Lwe.subElementMul out ct d) i) =
      toRq N (block N out i) - toRq N (block N ct i) * const N d := by
    intro i hi
    have h1 := block_len N _ i out ho hi
    have h2 := block_len N _ i ct hc hi
    rw [block_subElementMul N i out ct (ho.trans hc.symm), toRq_sub N _ _ (by simp [h1, h2]), toRq_map_mul]
  rw [glwePhase, glwePhase, glwePhase, hb k (by omega),
    Finset.sum_congr rfl (fun i hi => by rw [hb i (by have := Finset.mem_range.1 hi; omega)])]
  simp only [sub_mul, Finset.sum_sub_distrib, Finset.sum_mul]
  have : ∀ i ∈ Finset.range k, toRq N (block N ct i) * const N d * toRq N (block N key i) =
      toRq N (block N ct i) * toRq N (block N key i) * const N d := fun i _ => by ring
  rw [Finset.sum_congr rfl this]
  ring

/-- One block: the digits of `a` times the phases of the level ciphertexts are subtracted. -/
theorem subBlock_spec {N k : Nat} (hN : 0 < N) (key : List (BitVec w)) (b l : Nat) (blk : List (BitVec w))
    (hblk : blk.length = l * ((k + 1) * N)) (a : BitVec w) (acc : List (BitVec w)) (ha : CtFits N k acc) :
    CtFits N k (subBlock b l ((k + 1) * N) acc blk a) ∧
    glwePhase N k key (subBlock b l ((k + 1) * N) acc blk a) = glwePhase N k key acc +
      -(∑ j ∈ Finset.range l, glwePhase N k key (block ((k + 1) * N) blk (l - 1 - j)) *
        const N (Lwe.ksDigit b l a j)) := by
  have hkN : 0 < (k + 1) * N := Nat.mul_pos (by omega) hN
  have hz : (chunks ((k + 1) * N) blk).reverse.zip (decompose b l (closestRepresentable b l a)).terms =
      (List.range l).map fun j => (block ((k + 1) * N) blk (l - 1 - j),
        (Decomp.Term.mk (l - j) b (Lwe.ksDigit b l a j))) := by
    rw [chunks_eq _ hkN _ _ hblk, Decomp.decompose_terms]
    exact Lwe.zip_reverse_map l _ _
  have key' := foldl_measure
    (fun (acc : List (BitVec w)) (q : List (BitVec w) × Decomp.Term w) => Lwe.subElementMul acc q.1 q.2.value)
    (CtFits N k) (glwePhase N k key) (fun q => -(glwePhase N k key q.1 * const N q.2.value))
    ((chunks ((k + 1) * N) blk).reverse.zip (decompose b l (closestRepresentable b l a)).terms) acc ha (by
      intro st q hq hst
      have hq' : CtFits N k q.1 := by
        rw [hz] at hq
        obtain ⟨j, hj, rfl⟩ := List.mem_map.1 hq
        have := List.mem_range.1 hj
        exact block_len _ l _ blk hblk (by omega)
      exact ⟨fits_subElementMul hst _, phase_subElementMul key hst hq' _⟩)
  refine ⟨key'.1, ?_⟩
  rw [subBlock, key'.2, hz, List.map_map]
  congr 1
  rw [← Finset.sum_neg_distrib]
  exact list_sum_range _ l

/-- The loop over the elements, for a key with the phases of `KeyEnc`: the nearest representable values of
the elements times the `M i` are subtracted, and the digits times the errors. -/
theorem blocks_spec {N k : Nat} (hN : 0 < N) (b l n : Nat) (hv : ValidParams w b l)
    (key ksk : List (BitVec w)) (M : Nat → Rq (BitVec w) N) (err : Nat → Nat → Rq (BitVec w) N)
    (hk : KeyEnc N k b l n key ksk M err) (xs : List (BitVec w)) (hx : xs.length = n)
    (init : List (BitVec w)) (hi : CtFits N k init) :
    ∃ (c : Nat → BitVec w) (d : Nat → Nat → Int),
      (∀ i, i < n → Representable b l (c i) ∧
        -(2 ^ (w - b * l - 1) : Int) ≤ signedDiff (xs.getD i 0) (c i) ∧
        signedDiff (xs.getD i 0) (c i) < 2 ^ (w - b * l - 1)) ∧
      (∀ i j, i < n → j < l → -(2 ^ (b - 1) : Int) ≤ d i j ∧ d i j ≤ 2 ^ (b - 1)) ∧
      CtFits N k (((chunks (l * ((k + 1) * N)) ksk).zip xs).foldl
        (fun acc p => subBlock b l ((k + 1) * N) acc p.1 p.2) init) ∧
      glwePhase N k key (((chunks (l * ((k + 1) * N)) ksk).zip xs).foldl
        (fun acc p => subBlock b l ((k + 1) * N) acc p.1 p.2) init) = glwePhase N k key init -
          ∑ i ∈ Finset.range n, const N (c i) * M i -
          ∑ i ∈ Finset.range n, ∑ j ∈ Finset.range l, (d i j : Rq (BitVec w) N) * err i j := by
  obtain ⟨hlen, hrow⟩ := hk
  have hkN : 0 < (k + 1) * N := Nat.mul_pos (by omega) hN
  have hpos : 0 < l * ((k + 1) * N) := Nat.mul_pos hv.level hkN
  have hz : (chunks (l * ((k + 1) * N)) ksk).zip xs =
      (List.range n).map fun i => (block (l * ((k + 1) * N)) ksk i, xs.getD i 0) := by
    rw [Lwe.zip_eq_map_range _ _ [] 0 (by rw [chunks_length _ hpos _ _ hlen, hx]),
      chunks_length _ hpos _ _ hlen]
    apply List.map_congr_left
    intro i hi
    rw [chunks_eq _ hpos _ _ hlen]
    simp [List.getD_eq_getElem?_getD, List.getElem?_range (List.mem_range.1 hi)]
  have key' := foldl_measure
    (fun (acc : List (BitVec w)) (p : List (BitVec w) × BitVec w) => subBlock b l ((k + 1) * N) acc p.1 p.2)
    (CtFits N k) (glwePhase N k key)
    (fun p => -(∑ j ∈ Finset.range l, glwePhase N k key (block ((k + 1) * N) p.1 (l - 1 - j)) *
        const N (Lwe.ksDigit b l p.2 j)))
    ((chunks (l * ((k + 1) * N)) ksk).zip xs) init hi (by
      intro st p hp hst
      have hp' : p.1.length = l * ((k + 1) * N) := by
        rw [hz] at hp
        obtain ⟨i, hi, rfl⟩ := List.mem_map.1 hp
        exact block_len _ n i ksk hlen (List.mem_range.1 hi)
      exact subBlock_spec hN key b l p.1 hp' p.2 st hst)
  choose d hd1 hd2 hd3 using fun i : Nat => Lwe.ksDigit_spec b l hv (xs.getD i 0)
  refine ⟨fun i => closestRepresentable b l (xs.getD i 0), d, fun i _ => closest_signed b l hv _,
    fun i j _ hj => hd1 i j hj, key'.1, ?_⟩
  rw [key'.2, hz, List.map_map, list_sum_range]
  simp only [Function.comp]
  rw [Finset.sum_neg_distrib, sub_sub, ← sub_eq_add_neg]
  congr 1
  rw [← Finset.sum_add_distrib]
  refine Finset.sum_congr rfl fun i hi => ?_
  have hi' := Finset.mem_range.1 hi
  rw [← Finset.sum_range_reflect, ← hd3 i, const_sum, Finset.sum_mul, ← Finset.sum_add_distrib]
  refine Finset.sum_congr rfl fun j hj => ?_
  have hj' := Finset.mem_range.1 hj
  rw [show l - 1 - (l - 1 - j) = j by omega, Lwe.block_block _ l _ i j hj', hrow i hi' j hj',
    hd2 i (l - 1 - j) (by omega), show l - 1 - (l - 1 - j) = j by omega, const_mul, const_int, const_nat]
  push_cast
  ring

theorem phase_zero (N k : Nat) (key : List (BitVec w)) (n : Nat) :
    glwePhase N k key (List.replicate n 0#w) = 0 := by
  have : ∀ i, toRq N (block N (List.replicate n 0#w) i) = 0 := by
    intro i
    rw [block, List.drop_replicate, List.take_replicate]
    exact toRq_zero N _
  simp [glwePhase, this]

theorem phase_add (N k : Nat) (key a b : List (BitVec w)) (ha : CtFits N k a) (hb : CtFits N k b) :
    CtFits N k (zipUpdate (fun a x => a + x) a b) ∧
    glwePhase N k key (zipUpdate (fun a x => a + x) a b) = glwePhase N k key a + glwePhase N k key b := by
  have h := phase_subElementMul key ha hb (-1)
  have e : Lwe.subElementMul a b (-1) = zipUpdate (fun a x => a + x) a b := by
    rw [Lwe.subElementMul]; congr 1; funext x y; ring
  rw [e] at h
  refine ⟨by rw [CtFits, zipUpdate_length]; exact ha, ?_⟩
  rw [h, show (-1 : BitVec w) = ((-1 : Int) : BitVec w) by simp, const_int]
  push_cast; ring

/-- The initial value of the packing keyswitch has the constant phase `body`. -/
theorem phase_init {N k : Nat} (hN : 0 < N) (key after : List (BitVec w)) (ha : CtFits N k after)
    (body : BitVec w) :
    CtFits N k ((after.map fun _ => 0#w).set (after.length - N) body) ∧
    glwePhase N k key ((after.map fun _ => 0#w).set (after.length - N) body) = const N body := by
  have hl : after.length = k * N + N := by rw [ha, Nat.add_mul, Nat.one_mul]
  have e : (after.map fun _ => 0#w).set (after.length - N) body =
      List.replicate (k * N) 0#w ++ (body :: List.replicate (N - 1) 0#w) := by
    rw [List.map_const', hl, show k * N + N - N = k * N by omega]
    conv_lhs => rw [show k * N + N = k * N + (1 + (N - 1)) by omega, List.replicate_add, List.replicate_add]
    rw [List.set_append_right _ _ (by simp)]
    simp
  rw [e]
  refine ⟨by rw [CtFits, Nat.add_mul, Nat.one_mul]; simp; omega, ?_⟩
  rw [phase_append N k key _ _ (by simp) (by simp; omega)]
  have : ∀ i ∈ Finset.range k, toRq N (block N (List.replicate (k * N) 0#w) i) * toRq N (block N key i) = 0 := by
    intro i _
    rw [block, List.drop_replicate, List.take_replicate]
    have := toRq_zero (R := BitVec w) N
    rw [show (0#w : BitVec w) = 0 from rfl, this, zero_mul]
  rw [Finset.sum_eq_zero this, sub_zero]
  exact toRq_const N (N - 1) body

/-- The packing loop: if keyswitching ciphertext `i` gives phase `F i`, the output gets `Σ X^i F i`. -/
theorem packLoop_spec {N k : Nat} (hN : 0 < N) (key : List (BitVec w))
    (ks : List (BitVec w) → List (BitVec w) → Option (List (BitVec w))) :
    ∀ (cs : List (List (BitVec w))) (F : Nat → Rq (BitVec w) N) (deg : Nat) (buf out : List (BitVec w)),
    CtFits N k buf → CtFits N k out →
    (∀ i c, cs[i]? = some c → ∀ after, CtFits N k after →
      ∃ r, ks after c = some r ∧ CtFits N k r ∧ glwePhase N k key r = F i) →
    ∃ r, packLoop ks N cs deg buf out = some r ∧ CtFits N k r ∧
      glwePhase N k key r = glwePhase N k key out +
        ∑ i ∈ Finset.range cs.length, Xq (BitVec w) N ^ (deg + i) * F i
  | [], F, deg, buf, out, hb, ho, h => ⟨out, rfl, ho, by simp⟩
  | c :: cs, F, deg, buf, out, hb, ho, h => by
    obtain ⟨r, h1, h2, h3⟩ := h 0 c rfl buf hb
    obtain ⟨⟨m1, m2⟩, _⟩ := Pbs.phase_mono N k hN key r h2 deg
    obtain ⟨a1, a2⟩ := phase_add N k key out _ ho m1
    obtain ⟨r', g1, g2, g3⟩ := packLoop_spec hN key ks cs (fun i => F (i + 1)) (deg + 1) _ _ m1 a1
      (fun i c hc => h (i + 1) c hc)
    refine ⟨r', by simp only [packLoop, h1]; exact g1, g2, ?_⟩
    rw [g3, a2, m2, h3, List.length_cons, Finset.sum_range_succ', Nat.add_zero, add_assoc]
    congr 1
    rw [add_comm]
    congr 1
    refine Finset.sum_congr rfl fun i _ => ?_
    rw [show deg + 1 + i = deg + (i + 1) by omega]

end Verif.Pks
