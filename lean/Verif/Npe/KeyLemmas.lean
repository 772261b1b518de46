import Verif.Npe.KeySpec
import Verif.Npe.ProbLemmas
import Mathlib.Algebra.BigOperators.Intervals
import Mathlib.Algebra.BigOperators.Fin
/-
Helper lemmas: moments of the coefficients of products of random keys.
-/
namespace Verif.Npe
open Verif.Poly (negaConv)
open Dist

theorem modVar_ofModVar (v : ℚ) (q : Nat) : modVar (ofModVar v q) q = v := by
  rw [modVar, ofModVar, div_mul_cancel₀]; positivity

/-- The sign of the term of index `i` in coefficient `n`. -/
def eps (n i : Nat) : ℚ := if i ≤ n then 1 else -1

/-- The index multiplied with `i` in coefficient `n`. -/
def partner {N : Nat} (n : Nat) (i : Fin N) : Fin N :=
  ⟨(n + N - i.val) % N, Nat.mod_lt _ (by have := i.isLt; omega)⟩

theorem partner_val {N : Nat} (n : Nat) (hn : n < N) (i : Fin N) :
    (partner n i).val = if i.val ≤ n then n - i.val else n + N - i.val := by
  have := i.isLt
  simp only [partner]
  split
  · rw [show n + N - i.val = (n - i.val) + N by omega, Nat.add_mod_right, Nat.mod_eq_of_lt (by omega)]
  · rw [Nat.mod_eq_of_lt (by omega)]

theorem partner_partner {N : Nat} (n : Nat) (hn : n < N) (i : Fin N) : partner n (partner n i) = i := by
  have := i.isLt
  apply Fin.ext
  rw [partner_val n hn, partner_val n hn]
  by_cases h : i.val ≤ n
  · rw [if_pos h, if_pos (by omega)]; omega
  · rw [if_neg h, if_neg (by omega)]; omega

theorem eps_partner {N : Nat} (n : Nat) (hn : n < N) (i : Fin N) :
    eps n (partner n i) = eps n i := by
  have := i.isLt
  rw [eps, eps, partner_val n hn]
  by_cases h : i.val ≤ n
  · rw [if_pos h, if_pos (by omega), if_pos h]
  · rw [if_neg h, if_neg (by omega), if_neg h]

theorem eps_sq (n i : Nat) : eps n i * eps n i = 1 := by
  rw [eps]; split <;> norm_num

theorem getD_ofFn {N : Nat} (S : Fin N → ℚ) (i : Fin N) : (List.ofFn S).getD i.val 0 = S i := by
  simp [List.getD_eq_getElem?_getD]

theorem negaConv_eq {N : Nat} (n : Nat) (hn : n < N) (S T : Fin N → ℚ) :
    negaConv N (List.ofFn S) (List.ofFn T) n = ∑ i : Fin N, eps n i * (S i * T (partner n i)) := by
  rw [negaConv, Finset.sum_range]
  refine Finset.sum_congr rfl fun i _ => ?_
  rw [Finset.sum_range]
  have hi := i.isLt
  have hp := partner_val n hn i
  rw [Finset.sum_eq_single (partner n i)]
  · rw [getD_ofFn, getD_ofFn, eps]
    split at hp <;> rename_i h
    · rw [if_pos (by omega), if_pos h, one_mul]
    · rw [if_neg (by omega), if_pos (by omega), if_neg h]; ring
  · intro j _ hj
    have hne : j.val ≠ (partner n i).val := fun h => hj (Fin.ext h)
    have := j.isLt
    split at hp <;> rename_i h
    · rw [if_neg (by omega), if_neg (by omega)]
    · rw [if_neg (by omega), if_neg (by omega)]
  · simp

theorem sum_eps (N n : Nat) (hn : n < N) : ∑ i : Fin N, eps n i = 2 * n + 2 - N := by
  rw [← Finset.sum_range (fun i => eps n i)]
  have : ∀ M, n < M → ∑ i ∈ Finset.range M, eps n i = 2 * n + 2 - M := by
    intro M hM
    induction M with
    | zero => omega
    | succ M ih =>
      rw [Finset.sum_range_succ]
      by_cases h : n < M
      · rw [ih h, eps, if_neg (by omega)]; push_cast; ring
      · have e : M = n := by omega
        subst e
        rw [eps, if_pos (le_refl _), Finset.sum_congr rfl (g := fun _ => (1 : ℚ))
          (fun i hi => by rw [eps, if_pos (by have := Finset.mem_range.1 hi; omega)])]
        simp; ring
  exact this N hn

theorem sum_sq_mean (N : Nat) :
    ∑ n ∈ Finset.range N, ((2 * n + 2 - N : ℚ)) ^ 2 = N * ((N : ℚ) ^ 2 + 2) / 3 := by
  have key : ∀ M : Nat, ∀ c : ℚ, ∑ n ∈ Finset.range M, ((2 * n + 2 - c : ℚ)) ^ 2 =
      4 * (M * (M + 1) * (2 * M + 1) / 6) - 4 * c * (M * (M + 1) / 2) + M * c ^ 2 := by
    intro M c
    induction M with
    | zero => simp
    | succ M ih => rw [Finset.sum_range_succ, ih]; push_cast; ring
  rw [key]; ring

section moments
variable {α : Type} [Fintype α] (d : Dist α) (X : α → ℚ)

/-- The moment of order `c`. -/
def mom (c : Nat) : ℚ := d.E fun a => X a ^ c

/-- The expectation of a monomial in the coefficients of a key. -/
theorem E_monomial {N : Nat} (c : Fin N → Nat) :
    (iid N d).E (fun ω => ∏ k, X (ω k) ^ c k) = ∏ k, mom d X (c k) :=
  E_pi_prod (fun _ => d) (fun k a => X a ^ c k)

theorem mom_zero : mom d X 0 = 1 := by simp [mom, E_const]

theorem mom_disjoint {N : Nat} (c c' : Fin N → Nat) (h : ∀ k, c k = 0 ∨ c' k = 0) :
    ∏ k, mom d X (c k + c' k) = (∏ k, mom d X (c k)) * ∏ k, mom d X (c' k) := by
  rw [← Finset.prod_mul_distrib]
  refine Finset.prod_congr rfl fun k _ => ?_
  rcases h k with h | h
  · rw [h, mom_zero, Nat.zero_add, one_mul]
  · rw [h, mom_zero, Nat.add_zero, mul_one]

/-- The exponents of `(S_i)^m`. -/
def single {N : Nat} (i : Fin N) (m : Nat) : Fin N → Nat := fun k => if k = i then m else 0

theorem prod_single {N : Nat} (i : Fin N) (m : Nat) : ∏ k, mom d X (single i m k) = mom d X m := by
  rw [Finset.prod_eq_single i (fun j _ hj => by simp [single, hj, mom_zero]) (by simp)]
  simp [single]

theorem pow_single {N : Nat} (i : Fin N) (m : Nat) (f : Fin N → ℚ) :
    ∏ k, f k ^ single i m k = f i ^ m := by
  rw [Finset.prod_eq_single i (fun j _ hj => by simp [single, hj]) (by simp)]
  simp [single]

theorem E_of_exponents {N : Nat} (c : Fin N → Nat) (Y : (Fin N → α) → ℚ)
    (h : ∀ ω, Y ω = ∏ k, X (ω k) ^ c k) : (iid N d).E Y = ∏ k, mom d X (c k) := by
  rw [E_congr _ h, E_monomial]

theorem E_single {N : Nat} (i : Fin N) (m : Nat) : (iid N d).E (fun ω => X (ω i) ^ m) = mom d X m := by
  rw [E_of_exponents d X (single i m) _ (fun ω => by rw [pow_single i m (fun k => X (ω k))]),
    prod_single]

theorem E_pair {N : Nat} (i j : Fin N) (hij : i ≠ j) (m m' : Nat) :
    (iid N d).E (fun ω => X (ω i) ^ m * X (ω j) ^ m') = mom d X m * mom d X m' := by
  rw [E_of_exponents d X (fun k => single i m k + single j m' k) _ (fun ω => by
      simp only [pow_add, Finset.prod_mul_distrib]
      rw [pow_single i m (fun k => X (ω k)), pow_single j m' (fun k => X (ω k))]),
    mom_disjoint, prod_single, prod_single]
  intro k
  by_cases h : k = i
  · right; simp [single, h, hij]
  · left; simp [single, h]

/-- Monomials on disjoint sets of coefficients are independent. -/
theorem E_disjoint {N : Nat} (i i' j j' : Fin N) (h1 : j ≠ i) (h2 : j ≠ i') (h3 : j' ≠ i)
    (h4 : j' ≠ i') :
    (iid N d).E (fun ω => X (ω i) * X (ω i') * (X (ω j) * X (ω j'))) =
      (iid N d).E (fun ω => X (ω i) * X (ω i')) * (iid N d).E (fun ω => X (ω j) * X (ω j')) := by
  have two : ∀ (i i' : Fin N) (ω : Fin N → α), X (ω i) * X (ω i') =
      ∏ k, X (ω k) ^ (single i 1 k + single i' 1 k) := by
    intro i i' ω
    simp only [pow_add, Finset.prod_mul_distrib]
    rw [pow_single i 1 (fun k => X (ω k)), pow_single i' 1 (fun k => X (ω k)), pow_one, pow_one]
  rw [E_of_exponents d X (fun k => (single i 1 k + single i' 1 k) + (single j 1 k + single j' 1 k)) _
      (fun ω => by
        rw [two i i', two j j', ← Finset.prod_mul_distrib]
        exact Finset.prod_congr rfl fun k _ => by rw [← pow_add]),
    E_of_exponents d X _ _ (two i i'), E_of_exponents d X _ _ (two j j'), mom_disjoint]
  intro k
  by_cases hi : k = i
  · right; subst hi; simp [single, Ne.symm h1, Ne.symm h3]
  · by_cases hi' : k = i'
    · right; subst hi'; simp [single, Ne.symm h2, Ne.symm h4]
    · left; simp [single, hi, hi']

/-! ### The product of two keys -/

omit [Fintype α] in
theorem productCoef_eq {N : Nat} (n : Nat) (hn : n < N) : productCoef X N n =
    fun ω => ∑ i : Fin N, eps n i * (X (ω.1 i) * X (ω.2 (partner n i))) :=
  funext fun _ => negaConv_eq n hn _ _

omit [Fintype α] in
theorem squareCoef_eq {N : Nat} (n : Nat) (hn : n < N) : squareCoef X N n =
    fun ω => ∑ i : Fin N, eps n i * (X (ω i) * X (ω (partner n i))) :=
  funext fun _ => negaConv_eq n hn _ _

theorem product_E {N : Nat} (n : Nat) (hn : n < N) :
    ((iid N d).prod (iid N d)).E (productCoef X N n) = (2 * n + 2 - N) * mom d X 1 ^ 2 := by
  rw [productCoef_eq X n hn, E_sum,
    ← sum_eps N n hn, Finset.sum_mul]
  refine Finset.sum_congr rfl fun i _ => ?_
  rw [E_mul_left, E_prod_mul (iid N d) (iid N d) (fun ω => X (ω i)) (fun ω => X (ω (partner n i)))]
  have h1 := E_single d X (N := N) i 1
  have h2 := E_single d X (N := N) (partner n i) 1
  simp only [pow_one] at h1 h2
  rw [h1, h2]; ring

theorem product_Var {N : Nat} (n : Nat) (hn : n < N) :
    ((iid N d).prod (iid N d)).Var (productCoef X N n) =
      N * (mom d X 2 ^ 2 - mom d X 1 ^ 4) := by
  rw [Var_eq, product_E d X n hn]
  rw [E_congr _ (Y := fun ω => ∑ i : Fin N, ∑ j : Fin N, eps n i * eps n j *
    ((X (ω.1 i) * X (ω.1 j)) * (X (ω.2 (partner n i)) * X (ω.2 (partner n j)))))
    (fun ω => by
      rw [productCoef_eq X n hn, sq, Finset.sum_mul_sum]
      exact Finset.sum_congr rfl fun i _ => Finset.sum_congr rfl fun j _ => by ring), E_sum]
  have hrow : ∀ i : Fin N, ((iid N d).prod (iid N d)).E (fun ω => ∑ j : Fin N, eps n i * eps n j *
      ((X (ω.1 i) * X (ω.1 j)) * (X (ω.2 (partner n i)) * X (ω.2 (partner n j))))) =
      (∑ j : Fin N, eps n i * eps n j * mom d X 1 ^ 4) + (mom d X 2 ^ 2 - mom d X 1 ^ 4) := by
    intro i
    rw [E_sum, ← Finset.add_sum_erase _ _ (Finset.mem_univ i),
      ← Finset.add_sum_erase Finset.univ (fun j : Fin N => eps n i * eps n j * mom d X 1 ^ 4)
        (Finset.mem_univ i)]
    have hd : ((iid N d).prod (iid N d)).E (fun ω => eps n i * eps n i *
        ((X (ω.1 i) * X (ω.1 i)) * (X (ω.2 (partner n i)) * X (ω.2 (partner n i))))) =
        mom d X 2 ^ 2 := by
      rw [E_mul_left, eps_sq, one_mul,
        E_prod_mul (iid N d) (iid N d) (fun ω => X (ω i) * X (ω i))
          (fun ω => X (ω (partner n i)) * X (ω (partner n i)))]
      have h1 := E_single d X (N := N) i 2
      have h2 := E_single d X (N := N) (partner n i) 2
      simp only [sq] at h1 h2 ⊢
      rw [h1, h2]
    have ho : ∀ j ∈ Finset.univ.erase i, ((iid N d).prod (iid N d)).E (fun ω => eps n i * eps n j *
        ((X (ω.1 i) * X (ω.1 j)) * (X (ω.2 (partner n i)) * X (ω.2 (partner n j))))) =
        eps n i * eps n j * mom d X 1 ^ 4 := by
      intro j hj
      have hji : i ≠ j := fun h => by simp [h] at hj
      have hpp : partner n i ≠ partner n j := fun h => hji (by
        rw [← partner_partner n hn i, h, partner_partner n hn j])
      rw [E_mul_left, E_prod_mul (iid N d) (iid N d) (fun ω => X (ω i) * X (ω j))
          (fun ω => X (ω (partner n i)) * X (ω (partner n j)))]
      have h1 := E_pair d X i j hji 1 1
      have h2 := E_pair d X _ _ hpp 1 1
      simp only [pow_one] at h1 h2
      rw [h1, h2]; ring
    rw [hd, Finset.sum_congr rfl ho, eps_sq]
    ring
  rw [Finset.sum_congr rfl fun i _ => hrow i, Finset.sum_add_distrib]
  simp only [Finset.sum_const, Finset.card_univ, Fintype.card_fin, nsmul_eq_mul, ← Finset.sum_mul]
  rw [← Finset.sum_mul_sum, sum_eps N n hn]
  ring

/-! ### The square of a key -/

theorem square_term (N n : Nat) (i : Fin N) :
    (iid N d).E (fun ω => X (ω i) * X (ω (partner n i))) =
      if partner n i = i then mom d X 2 else mom d X 1 ^ 2 := by
  split
  · rename_i h
    rw [← E_single d X i 2]
    exact E_congr _ fun ω => by rw [h]; ring
  · rename_i h
    have := E_pair d X i (partner n i) (fun e => h e.symm) 1 1
    simp only [pow_one] at this
    rw [this]; ring

theorem square_E {N : Nat} (n : Nat) (hn : n < N) :
    (iid N d).E (squareCoef X N n) = (2 * n + 2 - N) * mom d X 1 ^ 2 +
      (∑ i : Fin N, if partner n i = i then eps n i else 0) * (mom d X 2 - mom d X 1 ^ 2) := by
  rw [squareCoef_eq X n hn, E_sum,
    ← sum_eps N n hn, Finset.sum_mul, Finset.sum_mul, ← Finset.sum_add_distrib]
  refine Finset.sum_congr rfl fun i _ => ?_
  rw [E_mul_left, square_term]
  split <;> ring

theorem square_Var {N : Nat} (n : Nat) (hn : n < N) :
    (iid N d).Var (squareCoef X N n) =
      ∑ i : Fin N, (if partner n i = i then mom d X 4 - mom d X 2 ^ 2
        else 2 * (mom d X 2 ^ 2 - mom d X 1 ^ 4)) := by
  have hE : (iid N d).E (squareCoef X N n) =
      ∑ i : Fin N, eps n i * (iid N d).E (fun ω => X (ω i) * X (ω (partner n i))) := by
    rw [squareCoef_eq X n hn, E_sum]
    exact Finset.sum_congr rfl fun i _ => by rw [E_mul_left]
  rw [Var_eq, hE, sq (∑ i : Fin N, _), Finset.sum_mul_sum]
  rw [E_congr _ (Y := fun ω => ∑ i : Fin N, ∑ j : Fin N, eps n i * eps n j *
    ((X (ω i) * X (ω (partner n i))) * (X (ω j) * X (ω (partner n j)))))
    (fun ω => by
      rw [squareCoef_eq X n hn, sq, Finset.sum_mul_sum]
      exact Finset.sum_congr rfl fun i _ => Finset.sum_congr rfl fun j _ => by ring), E_sum,
    ← Finset.sum_sub_distrib]
  refine Finset.sum_congr rfl fun i _ => ?_
  rw [E_sum, ← Finset.sum_sub_distrib]
  set F : Fin N → ℚ := fun j => (iid N d).E (fun ω => eps n i * eps n j *
    ((X (ω i) * X (ω (partner n i))) * (X (ω j) * X (ω (partner n j))))) -
    eps n i * (iid N d).E (fun ω => X (ω i) * X (ω (partner n i))) *
      (eps n j * (iid N d).E (fun ω => X (ω j) * X (ω (partner n j)))) with hF
  have h0 : ∀ j, j ≠ i → j ≠ partner n i → F j = 0 := by
    intro j h1 h2
    have h3 : partner n j ≠ i := fun h => h2 (by rw [← h, partner_partner n hn])
    have h4 : partner n j ≠ partner n i := fun h => h1 (by
      rw [← partner_partner n hn j, h, partner_partner n hn])
    simp only [hF]
    rw [E_mul_left, E_disjoint d X i (partner n i) j (partner n j) h1 h2 h3 h4]
    ring
  have h4 : ∀ i : Fin N, (iid N d).E (fun ω => X (ω i) * X (ω (partner n i)) *
      (X (ω i) * X (ω (partner n i)))) =
      if partner n i = i then mom d X 4 else mom d X 2 ^ 2 := by
    intro i
    split
    · rename_i h
      rw [← E_single d X i 4]
      exact E_congr _ fun ω => by rw [h]; ring
    · rename_i h
      have := E_pair d X i (partner n i) (fun e => h e.symm) 2 2
      rw [show mom d X 2 ^ 2 = mom d X 2 * mom d X 2 by ring, ← this]
      exact E_congr _ fun ω => by ring
  have hi : F i = if partner n i = i then mom d X 4 - mom d X 2 ^ 2
      else mom d X 2 ^ 2 - mom d X 1 ^ 4 := by
    simp only [hF]
    rw [E_mul_left, eps_sq, one_mul, h4, square_term]
    have := eps_sq n i
    split
    · linear_combination (-(mom d X 2 ^ 2)) * this
    · linear_combination (-(mom d X 1 ^ 4)) * this
  change ∑ j, F j = _
  by_cases hfix : partner n i = i
  · rw [if_pos hfix, Finset.sum_eq_single i (fun j _ hj => h0 j hj (by rw [hfix]; exact hj))
      (by simp), hi, if_pos hfix]
  · have hp : F (partner n i) = F i := by
      simp only [hF]
      rw [partner_partner n hn, eps_partner n hn]
      congr 1
      · exact E_congr _ fun ω => by ring
      · rw [show (fun ω : Fin N → α => X (ω (partner n i)) * X (ω i)) =
          fun ω => X (ω i) * X (ω (partner n i)) from funext fun ω => by ring]
    rw [if_neg hfix, ← Finset.add_sum_erase _ F (Finset.mem_univ i),
      ← Finset.add_sum_erase (Finset.univ.erase i) F (a := partner n i) (by simp [hfix]),
      Finset.sum_eq_zero, hp, hi, if_neg hfix]
    · ring1
    · intro j hj
      simp only [Finset.mem_erase, Finset.mem_univ, and_true] at hj
      exact h0 j hj.2 hj.1

end moments

/-! ### Fixed points of the pairing -/

theorem fixed_iff {N : Nat} (n : Nat) (hn : n < N) (i : Fin N) :
    partner n i = i ↔ 2 * i.val = n ∨ 2 * i.val = n + N := by
  have := i.isLt
  rw [Fin.ext_iff, partner_val n hn]
  split <;> omega

theorem sum_fixed_odd {N : Nat} (n : Nat) (hn : n < N) (hN : 2 ∣ N) (ho : n % 2 = 1) (f g : ℚ) :
    ∑ i : Fin N, (if partner n i = i then f else g) = N * g := by
  rw [Finset.sum_congr rfl (g := fun _ => g) (fun i _ => by
    rw [if_neg (by rw [fixed_iff n hn]; omega)])]
  simp

theorem sum_fixed_even {N : Nat} (n : Nat) (hn : n < N) (hN : 2 ∣ N) (he : n % 2 = 0)
    (f : Fin N → ℚ) (g : ℚ) :
    ∑ i : Fin N, (if partner n i = i then f i else g) =
      f ⟨n / 2, by omega⟩ + f ⟨n / 2 + N / 2, by omega⟩ + ((N : ℚ) - 2) * g := by
  have hne : (⟨n / 2 + N / 2, by omega⟩ : Fin N) ≠ ⟨n / 2, by omega⟩ := by
    intro h; have := congrArg Fin.val h; simp at this; omega
  rw [← Finset.add_sum_erase _ _ (Finset.mem_univ (⟨n / 2, by omega⟩ : Fin N)),
    ← Finset.add_sum_erase (Finset.univ.erase _) _ (a := (⟨n / 2 + N / 2, by omega⟩ : Fin N))
      (by simp only [Finset.mem_erase, Finset.mem_univ, and_true]; exact hne),
    if_pos ((fixed_iff n hn _).2 (Or.inl (by simp; omega))),
    if_pos ((fixed_iff n hn _).2 (Or.inr (by simp; omega))),
    Finset.sum_congr rfl (g := fun _ => g)]
  · rw [Finset.sum_const, Finset.card_erase_of_mem (by
      simp only [Finset.mem_erase, Finset.mem_univ, and_true]; exact hne),
      Finset.card_erase_of_mem (Finset.mem_univ _), Finset.card_univ, Fintype.card_fin]
    rw [nsmul_eq_mul, show N - 1 - 1 = N - 2 by omega, Nat.cast_sub (by omega)]
    push_cast; ring
  · intro i hi
    simp only [Finset.mem_erase, Finset.mem_univ, and_true] at hi
    rw [if_neg]
    rw [fixed_iff n hn]
    intro h
    rcases h with h | h
    · exact hi.2 (Fin.ext (by simp; omega))
    · exact hi.1 (Fin.ext (by simp; omega))

end Verif.Npe
