import Verif.Poly.Model
import Verif.Poly.Spec
import Mathlib.Tactic.Ring
/-
Lemmas relating coefficient lists to `R[X]` and `R[X]/(X^N+1)`.
-/
set_option linter.unusedSectionVars false
namespace Verif.Poly
open Polynomial

variable {R : Type} [CommRing R]

theorem toPoly_coeff (p : List R) (k : Nat) : (toPoly p).coeff k = p.getD k 0 := by
  simp only [toPoly, finsetSum_coeff, coeff_C_mul_X_pow]
  rw [Finset.sum_ite_eq]
  split
  · rfl
  · rename_i h
    rw [Finset.mem_range, not_lt] at h
    simp [List.getD_eq_getElem?_getD, List.getElem?_eq_none h]

theorem getD_append (xs ys : List R) (i : Nat) :
    (xs ++ ys).getD i 0 = if i < xs.length then xs.getD i 0 else ys.getD (i - xs.length) 0 := by
  simp only [List.getD_eq_getElem?_getD, List.getElem?_append]
  split <;> rfl

theorem getD_of_le (xs : List R) (i : Nat) (h : xs.length ≤ i) : xs.getD i 0 = 0 := by
  simp [List.getD_eq_getElem?_getD, List.getElem?_eq_none h]

theorem toPoly_append (p q : List R) : toPoly (p ++ q) = toPoly p + X ^ p.length * toPoly q := by
  ext k
  rw [coeff_add, coeff_X_pow_mul', toPoly_coeff, toPoly_coeff, toPoly_coeff, getD_append]
  by_cases h : k < p.length
  · rw [if_pos h, if_neg (by omega), add_zero]
  · rw [if_neg h, if_pos (by omega), getD_of_le p k (by omega), zero_add]

theorem toPoly_nil : toPoly ([] : List R) = 0 := by simp [toPoly]

theorem toPoly_replicate_zero (n : Nat) : toPoly (List.replicate n (0 : R)) = 0 := by
  ext k
  rw [toPoly_coeff, coeff_zero, List.getD_eq_getElem?_getD]
  by_cases h : k < n
  · simp [h]
  · simp [List.getElem?_eq_none (show (List.replicate n (0 : R)).length ≤ k by simpa using h)]

theorem toPoly_map_zero (p : List R) : toPoly (p.map fun _ => (0 : R)) = 0 := by
  rw [List.map_const', toPoly_replicate_zero]

theorem toPoly_map_neg (p : List R) : toPoly (p.map fun a => -a) = - toPoly p := by
  ext k
  rw [coeff_neg, toPoly_coeff, toPoly_coeff]
  simp only [List.getD_eq_getElem?_getD, List.getElem?_map]
  cases p[k]? <;> simp

theorem zipUpdate_getD_lin (a b : R) (out p : List R) (h : out.length = p.length) (k : Nat) :
    (zipUpdate (fun x y => a * x + b * y) out p).getD k 0 = a * out.getD k 0 + b * p.getD k 0 := by
  by_cases hk : k < out.length
  · rw [zipUpdate_getD _ _ _ _ 0 0 hk (by omega)]
  · rw [getD_of_le _ _ (by rw [zipUpdate_length]; omega), getD_of_le _ _ (by omega),
      getD_of_le _ _ (by omega)]; ring

theorem toPoly_zipUpdate_lin (a b : R) (out p : List R) (h : out.length = p.length) :
    toPoly (zipUpdate (fun x y => a * x + b * y) out p) = C a * toPoly out + C b * toPoly p := by
  ext k
  rw [coeff_add, coeff_C_mul, coeff_C_mul, toPoly_coeff, toPoly_coeff, toPoly_coeff,
    zipUpdate_getD_lin a b out p h]

theorem toPoly_add (out p : List R) (h : out.length = p.length) :
    toPoly (zipUpdate (fun x y => x + y) out p) = toPoly out + toPoly p := by
  have := toPoly_zipUpdate_lin 1 1 out p h
  simpa using this

theorem toPoly_sub (out p : List R) (h : out.length = p.length) :
    toPoly (zipUpdate (fun x y => x - y) out p) = toPoly out - toPoly p := by
  have := toPoly_zipUpdate_lin 1 (-1) out p h
  simpa [sub_eq_add_neg] using this

theorem zipUpdate_snd (out p : List R) (h : out.length = p.length) :
    zipUpdate (fun _ y => y) out p = p := by
  rw [zipUpdate_eq_zipWith _ _ _ (by omega)]
  apply List.ext_getElem
  · simp [h]
  · intro i h1 h2; simp

theorem getD_modify (p : List R) (k : Nat) (f : R → R) (i : Nat) (hk : k < p.length) :
    (p.modify k f).getD i 0 = if i = k then f (p.getD i 0) else p.getD i 0 := by
  simp only [List.getD_eq_getElem?_getD, List.getElem?_modify]
  by_cases h : i = k
  · subst h; simp [hk]
  · have : ¬ k = i := fun e => h e.symm
    simp only [h, this, if_false]
    cases p[i]? <;> rfl

theorem toPoly_modify_add (p : List R) (k : Nat) (x : R) (hk : k < p.length) :
    toPoly (p.modify k fun a => a + x) = toPoly p + C x * X ^ k := by
  ext i
  rw [coeff_add, coeff_C_mul_X_pow, toPoly_coeff, toPoly_coeff, getD_modify _ _ _ _ hk]
  split <;> simp

theorem toPoly_take_drop (p : List R) (k : Nat) (hk : k ≤ p.length) :
    toPoly p = toPoly (p.take k) + X ^ k * toPoly (p.drop k) := by
  conv_lhs => rw [← List.take_append_drop k p]
  rw [toPoly_append, List.length_take, Nat.min_eq_left hk]

/-! ### The quotient ring -/

theorem Xq_pow (N : Nat) : Xq R N ^ N = -1 := by
  have h : AdjoinRoot.mk (X ^ N + 1 : R[X]) (X ^ N + 1) = 0 := AdjoinRoot.mk_self
  rw [map_add, map_pow, AdjoinRoot.mk_X, map_one] at h
  exact eq_neg_of_add_eq_zero_left h

theorem Xq_unit (N : Nat) (hN : 0 < N) : Xq R N * -(Xq R N ^ (N - 1)) = 1 := by
  have h := Xq_pow (R := R) N
  have e : Xq R N ^ N = Xq R N * Xq R N ^ (N - 1) := by
    rw [← pow_succ']; congr 1; omega
  rw [e] at h
  rw [mul_neg, h, neg_neg]

theorem toRq_X (N : Nat) (x : R) (k : Nat) :
    AdjoinRoot.mk (X ^ N + 1 : R[X]) (C x * X ^ k) = AdjoinRoot.of _ x * Xq R N ^ k := by
  rw [map_mul, map_pow, AdjoinRoot.mk_C, AdjoinRoot.mk_X]; rfl

theorem monic_nega (N : Nat) (hN : 0 < N) : (X ^ N + 1 : R[X]).Monic := by
  have := monic_X_pow_add_C (R := R) (1 : R) (n := N) (by omega)
  simpa using this

theorem natDegree_toPoly_lt (p : List R) (N : Nat) (hN : 0 < N) (h : p.length ≤ N) :
    (toPoly p).natDegree < N := by
  rw [Nat.lt_iff_add_one_le, ← Nat.sub_add_cancel (show 1 ≤ N by omega)]
  apply Nat.add_le_add_right
  rw [natDegree_le_iff_coeff_eq_zero]
  intro k hk
  rw [toPoly_coeff, getD_of_le _ _ (by omega)]

theorem list_ext_getD (p q : List R) (h : p.length = q.length) (hc : ∀ i, i < p.length → p.getD i 0 = q.getD i 0) :
    p = q := by
  apply List.ext_getElem h
  intro i h1 h2
  have := hc i h1
  simpa [List.getD_eq_getElem?_getD, List.getElem?_eq_getElem h1, List.getElem?_eq_getElem h2] using this

/-- The coefficients of a list of length `N` are determined by its class. -/
theorem toRq_inj (N : Nat) (hN : 0 < N) (p q : List R) (hp : p.length = N) (hq : q.length = N)
    (h : toRq N p = toRq N q) : p = q := by
  by_cases hR : Nontrivial R
  · have hdvd : (X ^ N + 1 : R[X]) ∣ toPoly p - toPoly q := AdjoinRoot.mk_eq_mk.1 h
    have hm := monic_nega (R := R) N hN
    have hdeg : (X ^ N + 1 : R[X]).natDegree = N := by
      have := natDegree_X_pow_add_C (R := R) (n := N) (r := 1)
      simpa using this
    have hz : toPoly p - toPoly q = 0 := by
      by_contra hne
      apply hm.not_dvd_of_natDegree_lt hne _ hdvd
      rw [hdeg]
      exact lt_of_le_of_lt (natDegree_sub_le _ _)
        (max_lt (natDegree_toPoly_lt p N hN (by omega)) (natDegree_toPoly_lt q N hN (by omega)))
    have he : toPoly p = toPoly q := sub_eq_zero.1 hz
    apply list_ext_getD _ _ (by omega)
    intro i _
    rw [← toPoly_coeff, ← toPoly_coeff, he]
  · have : Subsingleton R := not_nontrivial_iff_subsingleton.1 hR
    exact list_ext_getD _ _ (by omega) (fun i _ => Subsingleton.elim _ _)

theorem toRq_add (N : Nat) (out p : List R) (h : out.length = p.length) :
    toRq N (add out p) = toRq N out + toRq N p := by
  rw [toRq, add, toPoly_add _ _ h, map_add]; rfl

theorem toRq_sub (N : Nat) (out p : List R) (h : out.length = p.length) :
    toRq N (sub out p) = toRq N out - toRq N p := by
  rw [toRq, sub, toPoly_sub _ _ h, map_sub]; rfl

theorem toRq_sum (N : Nat) (p : List R) :
    toRq N p = ∑ i ∈ Finset.range p.length, AdjoinRoot.of _ (p.getD i 0) * Xq R N ^ i := by
  rw [toRq, toPoly, map_sum]
  exact Finset.sum_congr rfl fun i _ => toRq_X N _ i

theorem toRq_zero (N n : Nat) : toRq N (List.replicate n (0 : R)) = 0 := by
  rw [toRq, toPoly_replicate_zero, map_zero]

theorem toRq_modify (N : Nat) (p : List R) (k : Nat) (x : R) (hk : k < p.length) :
    toRq N (p.modify k fun a => a + x) = toRq N p + AdjoinRoot.of _ x * Xq R N ^ k := by
  rw [toRq, toPoly_modify_add _ _ _ hk, map_add, toRq_X]; rfl

/-! ### The product loop -/

theorem addMulStep_length (d : Nat) (acc : List R) (i j : Nat) (x y : R) :
    (addMulStep d acc i j x y).length = acc.length := by
  unfold addMulStep; split <;> simp

theorem subMulStep_eq (d : Nat) (acc : List R) (i j : Nat) (x y : R) :
    subMulStep d acc i j x y = addMulStep d acc i j (-x) y := by
  unfold subMulStep addMulStep
  simp only [neg_mul, sub_eq_add_neg, neg_neg]

theorem addMulStep_toRq (N : Nat) (hN : 0 < N) (acc : List R) (ha : acc.length = N) (i j : Nat)
    (hi : i < N) (hj : j < N) (x y : R) :
    toRq N (addMulStep (N - 1) acc i j x y) =
      toRq N acc + AdjoinRoot.of _ x * Xq R N ^ i * (AdjoinRoot.of _ y * Xq R N ^ j) := by
  unfold addMulStep
  have e : N - 1 + 1 = N := by omega
  split
  · rw [toRq_modify _ _ _ _ (by omega), map_mul, pow_add]; ring
  · simp only [sub_eq_add_neg]
    rw [e, toRq_modify _ _ _ _ (by rw [ha]; exact Nat.mod_lt _ hN)]
    have h2 : i + j = (i + j) % N + N := by
      rw [Nat.mod_eq_sub_mod (by omega), Nat.mod_eq_of_lt (by omega)]; omega
    have h3 : Xq R N ^ i * Xq R N ^ j = - Xq R N ^ ((i + j) % N) := by
      rw [← pow_add]
      conv_lhs => rw [h2]
      rw [pow_add, Xq_pow, mul_neg_one]
    rw [map_neg, map_mul]
    linear_combination (-(AdjoinRoot.of (X ^ N + 1 : R[X]) x * AdjoinRoot.of (X ^ N + 1 : R[X]) y)) * h3

theorem addMulStep_getD (N : Nat) (hN : 0 < N) (acc : List R) (ha : acc.length = N) (i j : Nat)
    (hi : i < N) (hj : j < N) (x y : R) (k : Nat) (hk : k < N) :
    (addMulStep (N - 1) acc i j x y).getD k 0 = acc.getD k 0 +
      (if i + j = k then x * y else if i + j = k + N then -(x * y) else 0) := by
  unfold addMulStep
  have e : N - 1 + 1 = N := by omega
  split
  · rw [getD_modify _ _ _ _ (by omega)]
    by_cases h : i + j = k
    · simp [h]
    · rw [if_neg (fun e => h e.symm), if_neg h, if_neg (by omega), add_zero]
  · rw [e, getD_modify _ _ _ _ (by rw [ha]; exact Nat.mod_lt _ hN)]
    have h2 : (i + j) % N = i + j - N := by
      rw [Nat.mod_eq_sub_mod (by omega), Nat.mod_eq_of_lt (by omega)]
    rw [h2, if_neg (show ¬ i + j = k by omega)]
    by_cases h : i + j = k + N
    · rw [if_pos (by omega), if_pos h, sub_eq_add_neg]
    · rw [if_neg (by omega), if_neg h, add_zero]

/-- Measure of the double loop. -/
theorem addMul_measure {M : Type} [AddCommMonoid M] (N : Nat) (μ : List R → M)
    (step : List R → Nat → Nat → List R) (d : Nat → Nat → M)
    (hl : ∀ acc i j, (step acc i j).length = acc.length)
    (hμ : ∀ acc : List R, acc.length = N → ∀ i j, i < N → j < N → μ (step acc i j) = μ acc + d i j)
    (acc : List R) (ha : acc.length = N) :
    let r := (List.range N).foldl (fun acc i => (List.range N).foldl (fun acc j => step acc i j) acc) acc
    r.length = N ∧ μ r = μ acc + ∑ i ∈ Finset.range N, ∑ j ∈ Finset.range N, d i j := by
  intro r
  have inner : ∀ i, i < N → ∀ acc : List R, acc.length = N →
      ((List.range N).foldl (fun acc j => step acc i j) acc).length = N ∧
      μ ((List.range N).foldl (fun acc j => step acc i j) acc) =
        μ acc + ((List.range N).map fun j => d i j).sum := by
    intro i hi acc ha
    exact foldl_measure (fun acc j => step acc i j) (fun a => a.length = N) μ (d i) (List.range N) acc ha
      (fun s j hj hs => ⟨by rw [hl, hs], hμ s hs i j hi (List.mem_range.1 hj)⟩)
  have outer := foldl_measure (fun acc i => (List.range N).foldl (fun acc j => step acc i j) acc)
    (fun a => a.length = N) μ (fun i => ((List.range N).map fun j => d i j).sum) (List.range N) acc ha
    (fun s i hi hs => inner i (List.mem_range.1 hi) s hs)
  refine ⟨outer.1, ?_⟩
  rw [outer.2, list_sum_range]
  simp only [list_sum_range]

theorem addMul_spec (N : Nat) (hN : 0 < N) (acc p q : List R) (ha : acc.length = N) (hp : p.length = N)
    (hq : q.length = N) :
    (addMul acc p q).length = N ∧ toRq N (addMul acc p q) = toRq N acc + toRq N p * toRq N q ∧
    ∀ k, k < N → (addMul acc p q).getD k 0 = acc.getD k 0 + negaConv N p q k := by
  have h1 := addMul_measure N (toRq N)
    (fun acc i j => addMulStep (N - 1) acc i j (p.getD i 0) (q.getD j 0)) _
    (fun acc i j => addMulStep_length _ _ _ _ _ _)
    (fun acc ha i j hi hj => addMulStep_toRq N hN acc ha i j hi hj _ _) acc ha
  have e : addMul acc p q = (List.range N).foldl (fun acc i => (List.range N).foldl (fun acc j =>
      addMulStep (N - 1) acc i j (p.getD i 0) (q.getD j 0)) acc) acc := by
    rw [addMul, hp, hq]
  rw [e]
  refine ⟨h1.1, ?_, ?_⟩
  · rw [h1.2, toRq_sum N p, toRq_sum N q, hp, hq, Finset.sum_mul_sum]
  · intro k hk
    exact (addMul_measure N (fun l => l.getD k 0)
      (fun acc i j => addMulStep (N - 1) acc i j (p.getD i 0) (q.getD j 0)) _
      (fun acc i j => addMulStep_length _ _ _ _ _ _)
      (fun acc ha i j hi hj => addMulStep_getD N hN acc ha i j hi hj _ _ k hk) acc ha).2

theorem subMul_spec (N : Nat) (hN : 0 < N) (acc p q : List R) (ha : acc.length = N) (hp : p.length = N)
    (hq : q.length = N) :
    (subMul acc p q).length = N ∧ toRq N (subMul acc p q) = toRq N acc - toRq N p * toRq N q ∧
    ∀ k, k < N → (subMul acc p q).getD k 0 = acc.getD k 0 - negaConv N p q k := by
  have hn : subMul acc p q = addMul acc (p.map fun a => -a) q := by
    simp only [subMul, addMul, List.length_map, subMulStep_eq]
    congr 1
    funext acc i
    congr 1
    funext acc j
    congr 1
    simp only [List.getD_eq_getElem?_getD, List.getElem?_map]
    cases p[i]? <;> simp
  rw [hn]
  obtain ⟨h1, h2, h3⟩ := addMul_spec N hN acc (p.map fun a => -a) q ha (by simpa using hp) hq
  refine ⟨h1, ?_, ?_⟩
  · rw [h2, toRq, toRq, toRq, toRq, toPoly_map_neg, map_neg]; ring
  · intro k hk
    rw [h3 k hk, sub_eq_add_neg]
    congr 1
    simp only [negaConv]
    rw [← Finset.sum_neg_distrib]
    apply Finset.sum_congr rfl
    intro i _
    rw [← Finset.sum_neg_distrib]
    apply Finset.sum_congr rfl
    intro j _
    have : (p.map fun a => -a).getD i 0 = -(p.getD i 0) := by
      simp only [List.getD_eq_getElem?_getD, List.getElem?_map]
      cases p[i]? <;> simp
    rw [this]
    split
    · ring
    · split <;> simp

theorem mul_spec (N : Nat) (hN : 0 < N) (out p q : List R) (ho : out.length = N) (hp : p.length = N)
    (hq : q.length = N) :
    (mul out p q).length = N ∧ toRq N (mul out p q) = toRq N p * toRq N q ∧
    ∀ k, k < N → (mul out p q).getD k 0 = negaConv N p q k := by
  obtain ⟨h1, h2, h3⟩ := addMul_spec N hN (out.map fun _ => 0) p q (by simpa using ho) hp hq
  refine ⟨h1, ?_, ?_⟩
  · rw [mul, h2, toRq, toPoly_map_zero, map_zero, zero_add]
  · intro k hk
    rw [mul, h3 k hk, ← toPoly_coeff, toPoly_map_zero, coeff_zero, zero_add]

/-! ### Multisums -/

theorem addMultisum_spec (N : Nat) (hN : 0 < N) : ∀ (ps qs : List (List R)) (acc : List R),
    acc.length = N → (∀ p ∈ ps, p.length = N) → (∀ q ∈ qs, q.length = N) →
    (addMultisum acc ps qs).length = N ∧
    toRq N (addMultisum acc ps qs) = toRq N acc +
      ((ps.zip qs).map fun x => toRq N x.1 * toRq N x.2).sum := by
  intro ps qs acc ha hp hq
  exact foldl_measure (fun acc (x : List R × List R) => addMul acc x.1 x.2) (fun a => a.length = N)
    (toRq N) (fun x => toRq N x.1 * toRq N x.2) (ps.zip qs) acc ha (by
      intro s x hx hs
      have h := List.of_mem_zip (a := x.1) (b := x.2) hx
      obtain ⟨h1, h2, _⟩ := addMul_spec N hN s x.1 x.2 hs (hp _ h.1) (hq _ h.2)
      exact ⟨h1, h2⟩)

theorem subMultisum_spec (N : Nat) (hN : 0 < N) : ∀ (ps qs : List (List R)) (acc : List R),
    acc.length = N → (∀ p ∈ ps, p.length = N) → (∀ q ∈ qs, q.length = N) →
    (subMultisum acc ps qs).length = N ∧
    toRq N (subMultisum acc ps qs) = toRq N acc -
      ((ps.zip qs).map fun x => toRq N x.1 * toRq N x.2).sum := by
  intro ps qs acc ha hp hq
  have := foldl_measure (fun acc (x : List R × List R) => subMul acc x.1 x.2) (fun a => a.length = N)
    (toRq N) (fun x => -(toRq N x.1 * toRq N x.2)) (ps.zip qs) acc ha (by
      intro s x hx hs
      have h := List.of_mem_zip (a := x.1) (b := x.2) hx
      obtain ⟨h1, h2, _⟩ := subMul_spec N hN s x.1 x.2 hs (hp _ h.1) (hq _ h.2)
      exact ⟨h1, by rw [h2, sub_eq_add_neg]⟩)
  refine ⟨this.1, ?_⟩
  rw [subMultisum, this.2, sub_eq_add_neg]
  congr 1
  induction ps.zip qs with
  | nil => simp
  | cons a l ih => simp [ih]; ring

/-! ### Monomials -/

theorem toRq_append (N : Nat) (p q : List R) :
    toRq N (p ++ q) = toRq N p + Xq R N ^ p.length * toRq N q := by
  rw [toRq, toPoly_append, map_add, map_mul, map_pow, AdjoinRoot.mk_X]; rfl

theorem toRq_neg (N : Nat) (p : List R) : toRq N (p.map fun a => -a) = - toRq N p := by
  rw [toRq, toPoly_map_neg, map_neg]; rfl

theorem rotateRight_length (l : List R) (k : Nat) : (rotateRight l k).length = l.length := by
  simp [rotateRight]

theorem rotateLeft_length (l : List R) (k : Nat) : (rotateLeft l k).length = l.length := by
  simp [rotateLeft]; omega

theorem negFirst_length (l : List R) (k : Nat) : (negFirst l k).length = l.length := by
  simp [negFirst]; omega

theorem negLast_length (l : List R) (k : Nat) : (negLast l k).length = l.length := by
  simp [negLast]

theorem rotMul_toRq (N : Nat) (p : List R) (hp : p.length = N) (r : Nat) (hr : r ≤ N) :
    toRq N (negFirst (rotateRight p r) r) = Xq R N ^ r * toRq N p := by
  have hd : (p.drop (N - r)).length = r := by simp [hp]; omega
  have e : negFirst (rotateRight p r) r = (p.drop (N - r)).map (fun a => -a) ++ p.take (N - r) := by
    simp only [negFirst, rotateRight, hp]
    rw [List.take_left' hd, List.drop_left' hd]
  rw [e, toRq_append, List.length_map, hd, toRq_neg]
  conv_rhs => rw [← List.take_append_drop (N - r) p, toRq_append, List.length_take,
    Nat.min_eq_left (by omega)]
  have h := Xq_pow (R := R) N
  have h2 : Xq R N ^ r * Xq R N ^ (N - r) = -1 := by
    rw [← pow_add, Nat.add_sub_cancel' hr, h]
  linear_combination (-(toRq N (p.drop (N - r)))) * h2

theorem rotDiv_toRq (N : Nat) (p : List R) (hp : p.length = N) (r : Nat) (hr : r ≤ N) :
    Xq R N ^ r * toRq N (negLast (rotateLeft p r) r) = toRq N p := by
  have hd : (p.drop r).length = N - r := by simp [hp]
  have ht : (p.take r).length = r := by simp [hp]; omega
  have e : negLast (rotateLeft p r) r = p.drop r ++ (p.take r).map (fun a => -a) := by
    simp only [negLast, rotateLeft, List.length_append, hd, ht]
    rw [show N - r + r - r = N - r by omega, List.take_left' hd, List.drop_left' hd]
  rw [e, toRq_append, hd, toRq_neg]
  conv_rhs => rw [← List.take_append_drop r p, toRq_append, ht]
  have h := Xq_pow (R := R) N
  have h2 : Xq R N ^ r * Xq R N ^ (N - r) = -1 := by
    rw [← pow_add, Nat.add_sub_cancel' hr, h]
  linear_combination (-(toRq N (p.take r))) * h2

theorem Xq_pow_full (N d : Nat) : Xq R N ^ d = (-1) ^ (d / N) * Xq R N ^ (d % N) := by
  conv_lhs => rw [← Nat.div_add_mod d N]
  rw [pow_add, pow_mul, Xq_pow]

theorem monomialMul_length (p : List R) (d : Nat) : (monomialMul p d).length = p.length := by
  simp only [monomialMul]
  rw [negFirst_length, rotateRight_length]
  split <;> simp

theorem monomialDiv_length (p : List R) (d : Nat) : (monomialDiv p d).length = p.length := by
  simp only [monomialDiv]
  rw [negLast_length, rotateLeft_length]
  split <;> simp

theorem neg_one_pow_ite {S : Type} [CommRing S] (c : Nat) :
    (-1 : S) ^ c = if c % 2 ≠ 0 then -1 else 1 := by
  split
  · rw [Odd.neg_one_pow (Nat.odd_iff.2 (by omega))]
  · rw [Even.neg_one_pow (Nat.even_iff.2 (by omega))]

theorem monomialMul_toRq (N : Nat) (hN : 0 < N) (p : List R) (hp : p.length = N) (d : Nat) :
    toRq N (monomialMul p d) = Xq R N ^ d * toRq N p := by
  have hr : d % N ≤ N := (Nat.mod_lt d hN).le
  rw [Xq_pow_full, neg_one_pow_ite]
  by_cases hc : d / N % 2 ≠ 0
  · simp only [monomialMul, hp, if_pos hc, List.length_map]
    rw [rotMul_toRq N _ (by simpa using hp) _ hr, toRq_neg]; ring
  · simp only [monomialMul, hp, if_neg hc]
    rw [rotMul_toRq N _ hp _ hr]; ring

theorem monomialDiv_toRq (N : Nat) (hN : 0 < N) (p : List R) (hp : p.length = N) (d : Nat) :
    Xq R N ^ d * toRq N (monomialDiv p d) = toRq N p := by
  have hr : d % N ≤ N := (Nat.mod_lt d hN).le
  rw [Xq_pow_full, neg_one_pow_ite]
  by_cases hc : d / N % 2 ≠ 0
  · simp only [monomialDiv, hp, if_pos hc, List.length_map]
    rw [mul_assoc, rotDiv_toRq N _ (by simpa using hp) _ hr, toRq_neg]; ring
  · simp only [monomialDiv, hp, if_neg hc]
    rw [mul_assoc, rotDiv_toRq N _ hp _ hr]; ring

theorem neg_getD (p : List R) (i : Nat) : (p.map fun a => -a).getD i 0 = -(p.getD i 0) := by
  simp only [List.getD_eq_getElem?_getD, List.getElem?_map]
  cases p[i]? <;> simp

theorem rotDiv_getD (N : Nat) (p : List R) (hp : p.length = N) (r : Nat) (hr : r < N) (j : Nat)
    (hj : j < N) :
    (negLast (rotateLeft p r) r).getD j 0 = if j + r < N then p.getD (j + r) 0 else - p.getD (j + r - N) 0 := by
  have hd : (p.drop r).length = N - r := by simp [hp]
  have ht : (p.take r).length = r := by simp [hp]; omega
  have e : negLast (rotateLeft p r) r = p.drop r ++ (p.take r).map (fun a => -a) := by
    simp only [negLast, rotateLeft, List.length_append, hd, ht]
    rw [show N - r + r - r = N - r by omega, List.take_left' hd, List.drop_left' hd]
  rw [e, getD_append, hd]
  by_cases h : j + r < N
  · rw [if_pos (by omega), if_pos h]
    simp only [List.getD_eq_getElem?_getD, List.getElem?_drop, Nat.add_comm]
  · rw [if_neg (by omega), if_neg h, neg_getD]
    congr 1
    simp only [List.getD_eq_getElem?_getD]
    rw [List.getElem?_take_of_lt (by omega)]
    congr 2; omega

theorem ext_add_N (N : Nat) (hN : 0 < N) (p : List R) (i : Nat) : ext N p (i + N) = - ext N p i := by
  simp only [ext, Nat.add_div_right _ hN, Nat.add_mod_right, pow_succ]; ring

theorem monomialDiv_getD (N : Nat) (hN : 0 < N) (p : List R) (hp : p.length = N) (d j : Nat)
    (hj : j < N) : (monomialDiv p d).getD j 0 = ext N p (j + d) := by
  have hr : d % N < N := Nat.mod_lt d hN
  have hd := Nat.div_add_mod d N
  have key : ext N p (j + d) = (-1) ^ (d / N) * ext N p (j + d % N) := by
    conv_lhs => rw [← hd]
    simp only [ext]
    rw [show j + (N * (d / N) + d % N) = (j + d % N) + N * (d / N) by ring,
      Nat.add_mul_div_left _ _ hN, Nat.add_mul_mod_self_left, pow_add]; ring
  have base : ∀ q : List R, q.length = N → (negLast (rotateLeft q (d % N)) (d % N)).getD j 0 =
      ext N q (j + d % N) := by
    intro q hq
    rw [rotDiv_getD N q hq _ hr j hj]
    split
    · rename_i h
      simp only [ext, Nat.div_eq_of_lt h, Nat.mod_eq_of_lt h, pow_zero, one_mul]
    · rename_i h
      have h1 : j + d % N = (j + d % N - N) + N := by omega
      have h2 : j + d % N - N < N := by omega
      conv_rhs => rw [h1]
      rw [ext_add_N N hN]
      simp only [ext, Nat.div_eq_of_lt h2, Nat.mod_eq_of_lt h2, pow_zero, one_mul]
  rw [key, neg_one_pow_ite]
  by_cases hc : d / N % 2 ≠ 0
  · simp only [monomialDiv, hp, if_pos hc, List.length_map]
    rw [base _ (by simpa using hp)]
    simp only [ext, neg_getD]; ring
  · simp only [monomialDiv, hp, if_neg hc]
    rw [base p hp, one_mul]

end Verif.Poly
