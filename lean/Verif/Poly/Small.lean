import Verif.Poly.Lemmas
import Verif.Util.BitVecRing
import Mathlib.Algebra.Order.BigOperators.Ring.Finset
/-
Arithmetic of polynomials with small integer coefficients.
-/
set_option linter.unusedSectionVars false
namespace Verif.Poly
open Polynomial

variable {R : Type} [CommRing R]

theorem abs_getD {z : List Int} {B : Int} (h : ∀ c ∈ z, |c| ≤ B) (hB : 0 ≤ B) (i : Nat) :
    |z.getD i 0| ≤ B := by
  by_cases hi : i < z.length
  · rw [List.getD_eq_getElem?_getD, List.getElem?_eq_getElem hi]
    exact h _ (List.getElem_mem hi)
  · rw [List.getD_eq_getElem?_getD, List.getElem?_eq_none (by omega)]
    simpa using hB

theorem getD_map_cast (z : List Int) (i : Nat) :
    (z.map fun c : Int => (c : R)).getD i 0 = ((z.getD i 0 : Int) : R) := by
  simp only [List.getD_eq_getElem?_getD, List.getElem?_map]
  cases z[i]? <;> simp

theorem Small.mono {N : Nat} {A B : Int} {x : Rq R N} (h : Small N A x) (hAB : A ≤ B) : Small N B x := by
  obtain ⟨z, h1, h2, h3⟩ := h
  exact ⟨z, h1, fun c hc => (h2 c hc).trans hAB, h3⟩

theorem small_zero (N : Nat) (B : Int) (hB : 0 ≤ B) : Small N B (0 : Rq R N) := by
  refine ⟨List.replicate N 0, by simp, fun c hc => ?_, ?_⟩
  · rw [List.eq_of_mem_replicate hc]; simpa using hB
  · rw [List.map_replicate, Int.cast_zero, toRq_zero]

theorem Small.add {N : Nat} {A B : Int} {x y : Rq R N} (hx : Small N A x) (hy : Small N B y) :
    Small N (A + B) (x + y) := by
  obtain ⟨z, h1, h2, rfl⟩ := hx
  obtain ⟨u, g1, g2, rfl⟩ := hy
  refine ⟨List.zipWith (· + ·) z u, by simp [h1, g1], fun c hc => ?_, ?_⟩
  · obtain ⟨i, hi, rfl⟩ := List.mem_iff_getElem.1 hc
    rw [List.getElem_zipWith]
    exact (abs_add_le _ _).trans (add_le_add (h2 _ (List.getElem_mem _)) (g2 _ (List.getElem_mem _)))
  · rw [← toRq_add N _ _ (by simp [h1, g1]), Poly.add, zipUpdate_eq_zipWith _ _ _ (by simp [h1, g1])]
    congr 1
    rw [List.map_zipWith, List.zipWith_map]
    simp

theorem Small.neg {N : Nat} {A : Int} {x : Rq R N} (hx : Small N A x) : Small N A (-x) := by
  obtain ⟨z, h1, h2, rfl⟩ := hx
  refine ⟨z.map (- ·), by simp [h1], fun c hc => ?_, ?_⟩
  · obtain ⟨d, hd, rfl⟩ := List.mem_map.1 hc
    rw [abs_neg]; exact h2 d hd
  · rw [← toRq_neg]
    congr 1
    simp

theorem Small.sub {N : Nat} {A B : Int} {x y : Rq R N} (hx : Small N A x) (hy : Small N B y) :
    Small N (A + B) (x - y) := by
  rw [sub_eq_add_neg]; exact hx.add hy.neg

theorem small_sum {N : Nat} {ι : Type} (s : Finset ι) (f : ι → Rq R N) (A : ι → Int)
    (h : ∀ i ∈ s, Small N (A i) (f i)) : Small N (∑ i ∈ s, A i) (∑ i ∈ s, f i) := by
  classical
  induction s using Finset.induction_on with
  | empty => simpa using small_zero N 0 le_rfl
  | insert a s ha ih =>
    rw [Finset.sum_insert ha, Finset.sum_insert ha]
    exact (h a (Finset.mem_insert_self a s)).add (ih fun i hi => h i (Finset.mem_insert_of_mem hi))

theorem small_sum_const {N : Nat} {n : Nat} (f : Nat → Rq R N) (A : Int)
    (h : ∀ i, i < n → Small N A (f i)) : Small N (n * A) (∑ i ∈ Finset.range n, f i) := by
  have := small_sum (Finset.range n) f (fun _ => A) (fun i hi => h i (Finset.mem_range.1 hi))
  simpa using this

theorem negaConv_cast (N : Nat) (p q : List Int) (k : Nat) :
    negaConv N (p.map fun c : Int => (c : R)) (q.map fun c : Int => (c : R)) k = ((negaConv N p q k : Int) : R) := by
  simp only [negaConv, getD_map_cast]
  push_cast
  refine Finset.sum_congr rfl fun i _ => Finset.sum_congr rfl fun j _ => ?_
  split
  · simp
  · split <;> simp

theorem negaConv_abs (N : Nat) (p q : List Int) (A B : Int) (hA : 0 ≤ A) (hB : 0 ≤ B)
    (hp : ∀ c ∈ p, |c| ≤ A) (hq : ∀ c ∈ q, |c| ≤ B) (k : Nat) (hk : k < N) :
    |negaConv N p q k| ≤ N * (A * B) := by
  rw [negaConv]
  refine (Finset.abs_sum_le_sum_abs _ _).trans ?_
  have : ∀ i ∈ Finset.range N, |∑ j ∈ Finset.range N,
      if i + j = k then p.getD i 0 * q.getD j 0
      else if i + j = k + N then -(p.getD i 0 * q.getD j 0) else 0| ≤ A * B := by
    intro i hi
    have hi := Finset.mem_range.1 hi
    have hxy : ∀ j, |p.getD i 0 * q.getD j 0| ≤ A * B := fun j => by
      rw [abs_mul]
      exact mul_le_mul (abs_getD hp hA i) (abs_getD hq hB j) (abs_nonneg _) hA
    by_cases hik : i ≤ k
    · rw [Finset.sum_eq_single (k - i)]
      · rw [if_pos (by omega)]; exact hxy _
      · intro j hj hne
        have hj := Finset.mem_range.1 hj
        rw [if_neg (by omega), if_neg (by omega)]
      · intro hn
        exact absurd (Finset.mem_range.2 (by omega)) hn
    · rw [Finset.sum_eq_single (k + N - i)]
      · rw [if_neg (by omega), if_pos (by omega), abs_neg]; exact hxy _
      · intro j hj hne
        have hj := Finset.mem_range.1 hj
        rw [if_neg (by omega), if_neg (by omega)]
      · intro hn
        exact absurd (Finset.mem_range.2 (by omega)) hn
  refine (Finset.sum_le_sum this).trans ?_
  simp

theorem Small.nonneg {N : Nat} (hN : 0 < N) {A : Int} {x : Rq R N} (hx : Small N A x) : 0 ≤ A := by
  obtain ⟨z, h1, h2, _⟩ := hx
  have : 0 < z.length := by omega
  exact (abs_nonneg _).trans (h2 _ (List.getElem_mem this))

theorem Small.mul {N : Nat} (hN : 0 < N) {A B : Int} {x y : Rq R N} (hx : Small N A x) (hy : Small N B y) :
    Small N (N * (A * B)) (x * y) := by
  have hA := hx.nonneg hN
  have hB := hy.nonneg hN
  obtain ⟨z, h1, h2, rfl⟩ := hx
  obtain ⟨u, g1, g2, rfl⟩ := hy
  obtain ⟨m1, m2, m3⟩ := mul_spec N hN (List.replicate N (0 : R)) (z.map fun c : Int => (c : R))
    (u.map fun c : Int => (c : R)) (by simp) (by simp [h1]) (by simp [g1])
  refine ⟨(List.range N).map fun k => negaConv N z u k, by simp, fun c hc => ?_, ?_⟩
  · obtain ⟨k, hk, rfl⟩ := List.mem_map.1 hc
    exact negaConv_abs N z u A B hA hB h2 g2 k (List.mem_range.1 hk)
  · rw [← m2]
    congr 1
    apply list_ext_getD _ _ (by rw [m1]; simp)
    intro k hk
    rw [m1] at hk
    rw [m3 k hk, negaConv_cast, getD_map_cast]
    simp [List.getD_eq_getElem?_getD, hk]

/-- Multiplication by a monomial permutes the coefficients up to sign. -/
theorem Small.monomial {N : Nat} (hN : 0 < N) {A : Int} {x : Rq R N} (hx : Small N A x) (d : Nat) :
    Small N A (Xq R N ^ d * x) := by
  obtain ⟨z, h1, h2, rfl⟩ := hx
  refine ⟨monomialMul z d, by rw [monomialMul_length, h1], fun c hc => ?_, ?_⟩
  · simp only [monomialMul, negFirst, rotateRight] at hc
    have hneg : ∀ c ∈ (if d / z.length % 2 ≠ 0 then z.map (fun a => -a) else z), |c| ≤ A := by
      intro c hc
      split at hc
      · obtain ⟨e, he, rfl⟩ := List.mem_map.1 hc
        rw [abs_neg]; exact h2 e he
      · exact h2 c hc
    generalize (if d / z.length % 2 ≠ 0 then z.map (fun a => -a) else z) = y at *
    have hrot : ∀ c ∈ List.drop (y.length - d % y.length) y ++ List.take (y.length - d % y.length) y,
        |c| ≤ A := by
      intro c hc
      rcases List.mem_append.1 hc with h | h
      · exact hneg c (List.mem_of_mem_drop h)
      · exact hneg c (List.mem_of_mem_take h)
    rcases List.mem_append.1 hc with h | h
    · obtain ⟨e, he, rfl⟩ := List.mem_map.1 h
      rw [abs_neg]; exact hrot e (List.mem_of_mem_take he)
    · exact hrot c (List.mem_of_mem_drop h)
  · rw [← monomialMul_toRq N hN _ (by simp [h1])]
    congr 1
    simp only [monomialMul, negFirst, rotateRight, List.length_map, List.map_append, List.map_take,
      List.map_drop, List.map_map]
    split <;> simp [Function.comp_def]

/-- A single small integer. -/
theorem small_const (N : Nat) (hN : 0 < N) (c : Int) :
    Small N |c| (AdjoinRoot.of (X ^ N + 1 : R[X]) (c : R)) := by
  refine ⟨c :: List.replicate (N - 1) 0, by simp; omega, fun d hd => ?_, ?_⟩
  · rcases List.mem_cons.1 hd with rfl | h
    · exact le_rfl
    · rw [List.eq_of_mem_replicate h]; simp
  · have h : toRq N ((c :: List.replicate (N - 1) (0 : Int)).map fun d : Int => (d : R)) =
        toRq N ([(c : R)] ++ List.replicate (N - 1) (0 : R)) := by simp
    rw [h, toRq_append, toRq_zero, mul_zero, add_zero, toRq_sum]
    simp

/-- Smallness of a list of words, read on its coefficients. -/
theorem small_toRq {w : Nat} (N : Nat) (l : List (BitVec w)) (hl : l.length = N) (B : Int)
    (h : ∀ c ∈ l, |c.toInt| ≤ B) : Small N B (toRq N l) := by
  refine ⟨l.map BitVec.toInt, by simp [hl], fun c hc => ?_, ?_⟩
  · obtain ⟨x, hx, rfl⟩ := List.mem_map.1 hc
    exact h x hx
  · congr 1
    rw [List.map_map]
    conv_lhs => rw [← List.map_id l]
    exact List.map_congr_left fun x _ => (BV.intCast_toInt x).symm

/-- `toInt` is the representative of least absolute value. -/
theorem abs_toInt_le {w : Nat} (z : Int) : |((z : Int) : BitVec w).toInt| ≤ |z| := by
  rcases Nat.eq_zero_or_pos w with rfl | hw
  · have : ((z : Int) : BitVec 0).toInt = 0 := by
      have := BitVec.eq_nil ((z : Int) : BitVec 0)
      rw [this]; rfl
    rw [this]; simp
  · by_cases h : -(2 ^ (w - 1) : Int) ≤ z ∧ z < 2 ^ (w - 1)
    · rw [BV.toInt_cast_of_bounds z h.1 h.2 hw]
    · have h1 := BitVec.toInt_lt (x := ((z : Int) : BitVec w))
      have h2 := BitVec.le_toInt (x := ((z : Int) : BitVec w))
      have hp : (0 : Int) < 2 ^ (w - 1) := by positivity
      have h3 : (2 ^ (w - 1) : Int) ≤ |z| := by
        rcases abs_cases z with ⟨e, _⟩ | ⟨e, _⟩ <;> rw [e] <;> by_contra hc <;> exact h ⟨by omega, by omega⟩
      exact (abs_le.2 ⟨by omega, by omega⟩ : _ ≤ (2 ^ (w - 1) : Int)).trans h3

/-- A small element, read on the coefficients of any list of words that represents it. -/
theorem Small.coeff {w N : Nat} (hN : 0 < N) {B : Int} {x : Rq (BitVec w) N} (h : Small N B x)
    (l : List (BitVec w)) (hl : l.length = N) (hx : toRq N l = x) (i : Nat) :
    |(l.getD i 0).toInt| ≤ B := by
  have hB := h.nonneg hN
  obtain ⟨z, h1, h2, h3⟩ := h
  have e := toRq_inj N hN l (z.map fun c : Int => (c : BitVec w)) hl (by simp [h1]) (by rw [hx, h3])
  rw [e, getD_map_cast]
  exact (abs_toInt_le _).trans (abs_getD h2 hB i)

theorem small_iff {w N : Nat} (hN : 0 < N) (l : List (BitVec w)) (hl : l.length = N) (B : Int) :
    Small N B (toRq N l) ↔ ∀ c ∈ l, |c.toInt| ≤ B := by
  refine ⟨fun h c hc => ?_, small_toRq N l hl B⟩
  obtain ⟨i, hi, rfl⟩ := List.mem_iff_getElem.1 hc
  have := h.coeff hN l hl rfl i
  rwa [List.getD_eq_getElem?_getD, List.getElem?_eq_getElem hi] at this

/-- Every element is the class of a list of size `N`. -/
theorem exists_toRq {N : Nat} (hN : 0 < N) (x : Rq R N) : ∃ l : List R, l.length = N ∧ toRq N l = x := by
  obtain ⟨p, rfl⟩ := AdjoinRoot.mk_surjective x
  induction p using Polynomial.induction_on' with
  | add p q hp hq =>
    obtain ⟨l, h1, h2⟩ := hp
    obtain ⟨m, g1, g2⟩ := hq
    exact ⟨Poly.add l m, by rw [Poly.add, zipUpdate_length, h1],
      by rw [toRq_add _ _ _ (by rw [h1, g1]), h2, g2, map_add]⟩
  | monomial n a =>
    refine ⟨monomialMul (a :: List.replicate (N - 1) 0) n, by rw [monomialMul_length]; simp; omega, ?_⟩
    rw [monomialMul_toRq N hN _ (by simp; omega)]
    have h : toRq N (a :: List.replicate (N - 1) (0 : R)) = AdjoinRoot.of _ a := by
      rw [show (a :: List.replicate (N - 1) (0 : R)) = [a] ++ List.replicate (N - 1) (0 : R) from rfl,
        toRq_append, toRq_zero, mul_zero, add_zero, toRq_sum]
      simp
    rw [h, ← C_mul_X_pow_eq_monomial, toRq_X, mul_comm]

end Verif.Poly
