import Verif.Poly.Karatsuba
/-
Properties C21 (negacyclic product), C22 (Karatsuba) and C23 (monomials).

The theorems hold over every commutative ring `R`; the wrapping arithmetic of the code on `w`-bit words is
`R := BitVec w` (Z/2^w).
-/
set_option linter.unusedSectionVars false
namespace Verif.Poly

variable {R : Type} [CommRing R]

/-- C21. The product written to any buffer of size `N` is the product in `R[X]/(X^N+1)`, and its
coefficient `k` is `Σ_{i+j=k} p_i q_j - Σ_{i+j=k+N} p_i q_j`; the previous content of the buffer has no
effect. -/
theorem C21_convolution (N : Nat) (hN : 0 < N) (out p q : List R) (ho : out.length = N)
    (hp : p.length = N) (hq : q.length = N) :
    (mul out p q).length = N ∧
    (∀ k, k < N → (mul out p q).getD k 0 = negaConv N p q k) ∧
    toRq N (mul out p q) = toRq N p * toRq N q := by
  obtain ⟨h1, h2, h3⟩ := mul_spec N hN out p q ho hp hq
  exact ⟨h1, h3, h2⟩

/-- C21. The accumulating product adds the product to the previous content. -/
theorem C21_add_mul (N : Nat) (hN : 0 < N) (acc p q : List R) (ha : acc.length = N)
    (hp : p.length = N) (hq : q.length = N) :
    (addMul acc p q).length = N ∧
    (∀ k, k < N → (addMul acc p q).getD k 0 = acc.getD k 0 + negaConv N p q k) ∧
    toRq N (addMul acc p q) = toRq N acc + toRq N p * toRq N q := by
  obtain ⟨h1, h2, h3⟩ := addMul_spec N hN acc p q ha hp hq
  exact ⟨h1, h3, h2⟩

/-- C21. The subtracting product subtracts the product from the previous content. -/
theorem C21_sub_mul (N : Nat) (hN : 0 < N) (acc p q : List R) (ha : acc.length = N)
    (hp : p.length = N) (hq : q.length = N) :
    (subMul acc p q).length = N ∧
    (∀ k, k < N → (subMul acc p q).getD k 0 = acc.getD k 0 - negaConv N p q k) ∧
    toRq N (subMul acc p q) = toRq N acc - toRq N p * toRq N q := by
  obtain ⟨h1, h2, h3⟩ := subMul_spec N hN acc p q ha hp hq
  exact ⟨h1, h3, h2⟩

/-- C21. The product does not depend on the order of the operands. -/
theorem C21_comm (N : Nat) (hN : 0 < N) (out out' p q : List R) (ho : out.length = N)
    (ho' : out'.length = N) (hp : p.length = N) (hq : q.length = N) : mul out p q = mul out' q p := by
  obtain ⟨h1, h2, _⟩ := mul_spec N hN out p q ho hp hq
  obtain ⟨h4, h5, _⟩ := mul_spec N hN out' q p ho' hq hp
  exact toRq_inj N hN _ _ h1 h4 (by rw [h2, h5, mul_comm])

/-- C21. The product is associative. -/
theorem C21_assoc (N : Nat) (hN : 0 < N) (b1 b2 b3 b4 p q r : List R) (h1 : b1.length = N)
    (h2 : b2.length = N) (h3 : b3.length = N) (h4 : b4.length = N)
    (hp : p.length = N) (hq : q.length = N) (hr : r.length = N) :
    mul b1 (mul b2 p q) r = mul b3 p (mul b4 q r) := by
  obtain ⟨l1, t1, _⟩ := mul_spec N hN b2 p q h2 hp hq
  obtain ⟨l2, t2, _⟩ := mul_spec N hN b1 (mul b2 p q) r h1 l1 hr
  obtain ⟨l3, t3, _⟩ := mul_spec N hN b4 q r h4 hq hr
  obtain ⟨l4, t4, _⟩ := mul_spec N hN b3 p (mul b4 q r) h3 hp l3
  exact toRq_inj N hN _ _ l2 l4 (by rw [t2, t1, t4, t3, mul_assoc])

/-- C21. The product distributes over polynomial addition and subtraction. -/
theorem C21_distrib (N : Nat) (hN : 0 < N) (b1 b2 b3 p q r : List R) (h1 : b1.length = N)
    (h2 : b2.length = N) (h3 : b3.length = N)
    (hp : p.length = N) (hq : q.length = N) (hr : r.length = N) :
    mul b1 p (add q r) = add (mul b2 p q) (mul b3 p r) ∧
    mul b1 p (sub q r) = sub (mul b2 p q) (mul b3 p r) := by
  have la : (add q r).length = N := by rw [add, zipUpdate_length, hq]
  have ls : (sub q r).length = N := by rw [sub, zipUpdate_length, hq]
  obtain ⟨l1, t1, _⟩ := mul_spec N hN b1 p (add q r) h1 hp la
  obtain ⟨l1', t1', _⟩ := mul_spec N hN b1 p (sub q r) h1 hp ls
  obtain ⟨l2, t2, _⟩ := mul_spec N hN b2 p q h2 hp hq
  obtain ⟨l3, t3, _⟩ := mul_spec N hN b3 p r h3 hp hr
  constructor
  · refine toRq_inj N hN _ _ l1 (by rw [add, zipUpdate_length, l2]) ?_
    rw [t1, toRq_add N _ _ (by omega), toRq_add N _ _ (by omega), t2, t3, mul_add]
  · refine toRq_inj N hN _ _ l1' (by rw [sub, zipUpdate_length, l2]) ?_
    rw [t1', toRq_sub N _ _ (by omega), toRq_sub N _ _ (by omega), t2, t3, mul_sub]

/-- C21. The multisums used by encryption and decryption are the sums of the products. -/
theorem C21_multisum (N : Nat) (hN : 0 < N) (acc : List R) (ps qs : List (List R))
    (ha : acc.length = N) (hp : ∀ p ∈ ps, p.length = N) (hq : ∀ q ∈ qs, q.length = N) :
    ((addMultisum acc ps qs).length = N ∧ toRq N (addMultisum acc ps qs) =
      toRq N acc + ((ps.zip qs).map fun x => toRq N x.1 * toRq N x.2).sum) ∧
    ((subMultisum acc ps qs).length = N ∧ toRq N (subMultisum acc ps qs) =
      toRq N acc - ((ps.zip qs).map fun x => toRq N x.1 * toRq N x.2).sum) :=
  ⟨addMultisum_spec N hN ps qs acc ha hp hq, subMultisum_spec N hN ps qs acc ha hp hq⟩

/-- C21. The coefficients are determined by the class in `R[X]/(X^N+1)`: the ring statements above are
statements about the coefficient lists. -/
theorem C21_faithful (N : Nat) (hN : 0 < N) (p q : List R) (hp : p.length = N) (hq : q.length = N) :
    toRq N p = toRq N q ↔ p = q :=
  ⟨toRq_inj N hN p q hp hq, fun h => by rw [h]⟩

/-- `(1 + X)(1 + X) = 2X` modulo `X^2 + 1`, on 8-bit words, into a dirty buffer. -/
example : mul [7, 7] [1, 1] [1, 1] = ([0, 2] : List (BitVec 8)) := by decide
example : negaConv 2 [1, 1] [1, 1] 0 = (0 : BitVec 8) ∧ negaConv 2 [1, 1] [1, 1] 1 = (2 : BitVec 8) := by
  decide
example : ∃ (out p q : List (BitVec 64)), out.length = 3 ∧ p.length = 3 ∧ q.length = 3 ∧
    mul out p q = [1 - 2 * 6 - 3 * 5, 5 + 2 - 3 * 6, 6 + 10 + 3] :=
  ⟨[9, 9, 9], [1, 2, 3], [1, 5, 6], rfl, rfl, rfl, by decide⟩

/-- C21. In debug builds the accumulating product does not overflow when one operand is binary (the case
of binary secret keys), and then gives the same result as in release builds. -/
theorem C21_debug_binary {w : Nat} (acc p q : List (BitVec w)) (hq : ∀ y ∈ q, y = 0 ∨ y = 1) :
    addMulDebug acc p q = some (addMul acc p q) := by
  rw [addMulDebug, if_pos]
  intro x _ y hy
  rcases hq y hy with h | h
  · subst h; simp
  · subst h
    have h1 : (1 : BitVec w).toNat ≤ 1 := by
      have := BitVec.toNat_ofNat 1 w
      have e : (1 : BitVec w) = BitVec.ofNat w 1 := rfl
      rw [e, this]; exact Nat.mod_le _ _
    calc x.toNat * (1 : BitVec w).toNat ≤ x.toNat * 1 := Nat.mul_le_mul_left _ h1
      _ = x.toNat := Nat.mul_one _
      _ < 2 ^ w := x.isLt

/-- Finding: with a ternary key (coefficient -1) the debug build panics on overflow, although the product
is the same for release builds. -/
theorem C21_debug_ternary_panics :
    addMulDebug [0] [2] [-1] = (none : Option (List (BitVec 32))) ∧
    addMul [0] [2] [-1] = ([-2] : List (BitVec 32)) := by
  constructor
  · rw [addMulDebug, if_neg]
    intro h
    have := h 2 (by simp) (-1) (by simp)
    simp at this
  · simp [addMul, addMulStep, List.range_succ]

/-- C22 (partial: sizes `64 * 2^k`). With enough stack, the Karatsuba product equals the schoolbook
product, whatever the output buffers contain. Missing: the other sizes, for which the claim is false
(`C22_small_sizes_diverge`). -/
theorem C22_karatsuba_partial (N k fuel : Nat) (hN : N = 64 * 2 ^ k) (hf : k < fuel) (out out' p q : List R)
    (ho : out.length = N) (ho' : out'.length = N) (hp : p.length = N) (hq : q.length = N) :
    karatsuba fuel out p q = some (mul out' p q) := by
  have h0 : 0 < N := by have := Nat.one_le_two_pow (n := k); omega
  obtain ⟨r, e, l, t⟩ := karatsuba_spec k fuel N hf hN out p q ho hp hq
  obtain ⟨h1, h2, _⟩ := mul_spec N h0 out' p q ho' hp hq
  rw [e, toRq_inj N h0 r _ l h1 (by rw [t, h2])]

example : ∃ (N k fuel : Nat) (p : List (BitVec 32)), N = 64 * 2 ^ k ∧ k < fuel ∧ p.length = N ∧ 1 < p.length :=
  ⟨128, 1, 2, List.replicate 128 3, rfl, by decide, by simp, by simp⟩

/-- Finding for C22: for every size below 64, in particular the powers of two 1, 2, 4, 8, 16 and 32
accepted by the debug assertion, the recursion never reaches its stopping size 32: it reaches every depth
(the program overflows its stack). -/
theorem C22_small_sizes_diverge (out p q : List R) (ho : out.length < 64) :
    ∀ fuel, karatsuba fuel out p q = none := by
  intro fuel
  simp only [karatsuba]
  rw [karatsubaInd_none fuel (List.replicate out.length 0) (sub' p 0 (out.length / 2))
      (sub' q 0 (out.length / 2)) (by simp [sub']; omega) (by simp; omega)]

/-- C22. The powers of two for which the Karatsuba product is usable are exactly those from 64 up; on
these it equals the schoolbook product. -/
theorem C22_powers_of_two_partial (N e : Nat) (hN : N = 2 ^ e) (out out' p q : List R)
    (ho : out.length = N) (ho' : out'.length = N) (hp : p.length = N) (hq : q.length = N) :
    (64 ≤ N → ∃ depth, ∀ fuel, depth ≤ fuel → karatsuba fuel out p q = some (mul out' p q)) ∧
    (N < 64 → ∀ fuel, karatsuba fuel out p q = none) := by
  constructor
  · intro h
    have he : 6 ≤ e := by
      by_contra hlt
      have : 2 ^ e ≤ 2 ^ 5 := Nat.pow_le_pow_right (by omega) (by omega)
      omega
    refine ⟨e - 6 + 1, fun fuel hf => C22_karatsuba_partial N (e - 6) fuel ?_ (by omega) out out' p q ho ho' hp hq⟩
    rw [hN, show (64 : Nat) = 2 ^ 6 from rfl, ← pow_add]; congr 1; omega
  · intro h
    exact C22_small_sizes_diverge out p q (by omega)

/-- C23. Multiplying in place by `X^d`, for any degree `d`, is the product by `X^d` in `R[X]/(X^N+1)`. -/
theorem C23_monomial_mul (N : Nat) (hN : 0 < N) (p : List R) (hp : p.length = N) (d : Nat) :
    (monomialMul p d).length = N ∧ toRq N (monomialMul p d) = Xq R N ^ d * toRq N p :=
  ⟨by rw [monomialMul_length, hp], monomialMul_toRq N hN p hp d⟩

/-- C23. Dividing in place by `X^d` gives the polynomial whose product by `X^d` is `p`; its coefficient
`j` is coefficient `j + d` of `p` extended by `p_{i+N} = -p_i`. -/
theorem C23_monomial_div (N : Nat) (hN : 0 < N) (p : List R) (hp : p.length = N) (d : Nat) :
    (monomialDiv p d).length = N ∧ Xq R N ^ d * toRq N (monomialDiv p d) = toRq N p ∧
    ∀ j, j < N → (monomialDiv p d).getD j 0 = ext N p (j + d) :=
  ⟨by rw [monomialDiv_length, hp], monomialDiv_toRq N hN p hp d,
    fun j hj => monomialDiv_getD N hN p hp d j hj⟩

/-- C23. Coefficient form of the multiplication: coefficient `j + d` of the extended product is
coefficient `j` of `p`. -/
theorem C23_monomial_mul_coeff (N : Nat) (hN : 0 < N) (p : List R) (hp : p.length = N) (d j : Nat)
    (hj : j < N) : ext N (monomialMul p d) (j + d) = p.getD j 0 := by
  have l : (monomialMul p d).length = N := by rw [monomialMul_length, hp]
  rw [← monomialDiv_getD N hN _ l d j hj]
  congr 1
  refine toRq_inj N hN _ _ (by rw [monomialDiv_length, l]) hp ?_
  have h1 := monomialDiv_toRq N hN _ l d
  rw [monomialMul_toRq N hN p hp] at h1
  have hu : Xq R N ^ d * (-(Xq R N ^ (N - 1))) ^ d = 1 := by
    rw [← mul_pow, Xq_unit N hN, one_pow]
  linear_combination (-(Xq R N ^ (N - 1))) ^ d * h1 - (toRq N (monomialDiv (monomialMul p d) d) - toRq N p) * hu

/-- C23. Multiplication and division by the same monomial undo each other, in both orders. -/
theorem C23_inverse (N : Nat) (hN : 0 < N) (p : List R) (hp : p.length = N) (d : Nat) :
    monomialDiv (monomialMul p d) d = p ∧ monomialMul (monomialDiv p d) d = p := by
  have hu : Xq R N ^ d * (-(Xq R N ^ (N - 1))) ^ d = 1 := by
    rw [← mul_pow, Xq_unit N hN, one_pow]
  have l : (monomialMul p d).length = N := by rw [monomialMul_length, hp]
  have l' : (monomialDiv p d).length = N := by rw [monomialDiv_length, hp]
  constructor
  · refine toRq_inj N hN _ _ (by rw [monomialDiv_length, l]) hp ?_
    have h1 := monomialDiv_toRq N hN _ l d
    rw [monomialMul_toRq N hN p hp] at h1
    linear_combination (-(Xq R N ^ (N - 1))) ^ d * h1 - (toRq N (monomialDiv (monomialMul p d) d) - toRq N p) * hu
  · refine toRq_inj N hN _ _ (by rw [monomialMul_length, l']) hp ?_
    rw [monomialMul_toRq N hN _ l', monomialDiv_toRq N hN p hp]

/-- C23. Degrees act additively, `X^N` is the sign change and `X^(2N)` the identity. -/
theorem C23_period (N : Nat) (hN : 0 < N) (p : List R) (hp : p.length = N) (d e : Nat) :
    monomialMul (monomialMul p d) e = monomialMul p (d + e) ∧
    monomialMul p N = p.map (fun a => -a) ∧ monomialMul p (2 * N) = p ∧ monomialDiv p (2 * N) = p ∧
    monomialMul p (d + 2 * N) = monomialMul p d ∧ monomialDiv p (d + 2 * N) = monomialDiv p d := by
  have l : ∀ d, (monomialMul p d).length = N := fun d => by rw [monomialMul_length, hp]
  have l' : ∀ d, (monomialDiv p d).length = N := fun d => by rw [monomialDiv_length, hp]
  have h2 : Xq R N ^ (2 * N) = 1 := by rw [two_mul, pow_add, Xq_pow]; ring
  have e1 : monomialMul p (2 * N) = p := by
    refine toRq_inj N hN _ _ (l _) hp ?_
    rw [monomialMul_toRq N hN _ hp, h2, one_mul]
  refine ⟨?_, ?_, e1, ?_, ?_, ?_⟩
  · refine toRq_inj N hN _ _ (by rw [monomialMul_length, l]) (l _) ?_
    rw [monomialMul_toRq N hN _ (l d), monomialMul_toRq N hN _ hp, monomialMul_toRq N hN _ hp, pow_add]
    ring
  · refine toRq_inj N hN _ _ (l _) (by simpa using hp) ?_
    rw [monomialMul_toRq N hN _ hp, toRq_neg, Xq_pow]; ring
  · conv_lhs => rw [← e1]
    exact (C23_inverse N hN p hp (2 * N)).1
  · refine toRq_inj N hN _ _ (l _) (l _) ?_
    rw [monomialMul_toRq N hN _ hp, monomialMul_toRq N hN _ hp, pow_add, h2, mul_one]
  · apply list_ext_getD _ _ (by rw [l', l'])
    intro j hj
    rw [l'] at hj
    rw [monomialDiv_getD N hN p hp _ j hj, monomialDiv_getD N hN p hp _ j hj]
    rw [show j + (d + 2 * N) = (j + d + N) + N by ring, ext_add_N N hN, ext_add_N N hN, neg_neg]

/-- C23. For `d < N` this is the product by the polynomial with the single coefficient 1 at `d`. -/
theorem C23_as_product (N : Nat) (p out : List R) (hp : p.length = N) (ho : out.length = N) (d : Nat)
    (hd : d < N) : monomialMul p d = mul out ((List.replicate N 0).set d 1) p := by
  have hN : 0 < N := by omega
  have ls : ((List.replicate N (0 : R)).set d 1).length = N := by simp
  obtain ⟨h1, h2, _⟩ := mul_spec N hN out _ p ho ls hp
  refine toRq_inj N hN _ _ (by rw [monomialMul_length, hp]) h1 ?_
  rw [monomialMul_toRq N hN p hp, h2]
  congr 1
  have : (List.replicate N (0 : R)).set d 1 = (List.replicate N (0 : R)).modify d (fun a => a + 1) := by
    apply List.ext_getElem (by simp)
    intro i h1 h2
    simp only [List.getElem_set, List.getElem_modify, List.getElem_replicate, zero_add]
  rw [this, toRq_modify N _ _ _ (by simpa using hd), toRq_zero, zero_add, map_one, one_mul]

theorem listMono_length (f : List R → List R) (hf : ∀ p, (f p).length = p.length) (N n : Nat) (hN : 0 < N)
    (ps : List R) (hl : ps.length = n * N) (i : Nat) (hi : i < n) :
    block N (((chunks N ps).map f).flatten) i = f (block N ps i) := by
  have hc := chunks_eq N hN n ps hl
  refine block_flatten N hN _ ?_ i _ ?_
  · intro l hlm
    rw [hc] at hlm
    simp only [List.map_map, List.mem_map, List.mem_range, Function.comp] at hlm
    obtain ⟨j, hj, rfl⟩ := hlm
    rw [hf, block_length]
    rw [hl]; exact Nat.mul_le_mul_right _ hj
  · rw [hc]; simp [hi]

/-- C23. On a list of polynomials, every polynomial is multiplied (divided) by the monomial. -/
theorem C23_list (N n : Nat) (hN : 0 < N) (ps : List R) (hl : ps.length = n * N) (d i : Nat) (hi : i < n) :
    block N (listMonomialMul N ps d) i = monomialMul (block N ps i) d ∧
    block N (listMonomialDiv N ps d) i = monomialDiv (block N ps i) d :=
  ⟨listMono_length _ (fun p => monomialMul_length p d) N n hN ps hl i hi,
   listMono_length _ (fun p => monomialDiv_length p d) N n hN ps hl i hi⟩

/-- `X^5 * (1 + 2X) = X + ...` with `N = 2`: `X^5 = X`, so the result is `-2 + X`; and dividing. -/
example : monomialMul [1, 2] 5 = ([-2, 1] : List (BitVec 8)) ∧
    monomialDiv [-2, 1] 5 = ([1, 2] : List (BitVec 8)) ∧ monomialMul [1, 2] 3 = ([2, -1] : List (BitVec 8)) := by
  decide
example : ∃ (ps : List (BitVec 8)), ps.length = 2 * 2 ∧ listMonomialMul 2 ps 1 = [-2, 1, -4, 3] :=
  ⟨[1, 2, 3, 4], rfl, by decide⟩

end Verif.Poly
