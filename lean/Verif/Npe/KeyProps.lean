import Verif.Npe.KeyLemmas
/-
C96: the constants of the kinds of keys are the moments of random keys.
-/
namespace Verif.Npe
open Dist

section general
variable {α : Type} [Fintype α] (d : Dist α) (X : α → ℚ)

theorem E_eq_mom : d.E X = mom d X 1 := E_congr _ fun a => (pow_one _).symm
theorem Var_eq_mom : d.Var X = mom d X 2 - mom d X 1 ^ 2 := by
  rw [Var_eq, E_eq_mom d X]; rfl
theorem Var_sq_eq_mom : d.Var (fun a => X a ^ 2) = mom d X 4 - mom d X 2 ^ 2 := by
  rw [Var_eq]
  congr 1
  exact E_congr _ fun a => by ring

theorem square_Var_odd {N : Nat} (n : Nat) (hn : n < N) (hN : 2 ∣ N) (ho : n % 2 = 1) :
    (iid N d).Var (squareCoef X N n) = N * (2 * (mom d X 2 ^ 2 - mom d X 1 ^ 4)) := by
  rw [square_Var d X n hn, sum_fixed_odd n hn hN ho]

theorem square_Var_even {N : Nat} (n : Nat) (hn : n < N) (hN : 2 ∣ N) (he : n % 2 = 0) :
    (iid N d).Var (squareCoef X N n) = 2 * (mom d X 4 - mom d X 2 ^ 2) +
      ((N : ℚ) - 2) * (2 * (mom d X 2 ^ 2 - mom d X 1 ^ 4)) := by
  rw [square_Var d X n hn, sum_fixed_even n hn hN he (fun _ => mom d X 4 - mom d X 2 ^ 2)]
  ring

theorem square_Var_one : (iid 1 d).Var (squareCoef X 1 0) = mom d X 4 - mom d X 2 ^ 2 := by
  rw [square_Var d X 0 (by omega)]
  simp [partner]

theorem square_E_even {N : Nat} (n : Nat) (hn : n < N) (hN : 2 ∣ N) :
    (iid N d).E (squareCoef X N n) = (2 * n + 2 - N) * mom d X 1 ^ 2 := by
  rw [square_E d X n hn]
  have : (∑ i : Fin N, if partner n i = i then eps n i else 0) = 0 := by
    rcases Nat.mod_two_eq_zero_or_one n with h | h
    · rw [sum_fixed_even n hn hN h (fun i => eps n i)]
      simp only [eps]
      rw [if_pos (by omega), if_neg (by omega)]
      ring
    · rw [Finset.sum_eq_zero]
      intro i _
      rw [if_neg (by rw [fixed_iff n hn]; omega)]
  rw [this]; ring

theorem square_E_one : (iid 1 d).E (squareCoef X 1 0) = mom d X 2 := by
  rw [square_E d X 0 (by omega)]
  simp [partner, eps]; ring

/-- Everything follows from the moments of order 1, 2 and 4 of one coefficient. -/
theorem describes_of_moments (K : KeyDispersion)
    (h1 : K.expCoef = mom d X 1)
    (h2 : ∀ q, modVar (K.varCoef q) q = mom d X 2 - mom d X 1 ^ 2)
    (h3 : ∀ q, K.expSq q = mom d X 2)
    (h4 : ∀ q, modVar (K.varSq q) q = mom d X 4 - mom d X 2 ^ 2)
    (h5 : ∀ q N, 2 ∣ N → 0 < N → modVar (K.varOdd N q) q = N * (2 * (mom d X 2 ^ 2 - mom d X 1 ^ 4)))
    (h6 : ∀ q N, 2 ∣ N → 0 < N → modVar (K.varEven N q) q = 2 * (mom d X 4 - mom d X 2 ^ 2) +
      ((N : ℚ) - 2) * (2 * (mom d X 2 ^ 2 - mom d X 1 ^ 4)))
    (h7 : ∀ q, (modVar (K.varOdd 1 q) q + modVar (K.varEven 1 q) q) / 2 = mom d X 4 - mom d X 2 ^ 2)
    (h8 : ∀ q, K.sqExpSquared 1 q = mom d X 2 ^ 2)
    (h9 : ∀ q N, 2 ∣ N → 0 < N → K.sqExpSquared N q = mom d X 1 ^ 4 * ((N : ℚ) ^ 2 + 2) / 3)
    (h10 : ∀ q N, 0 < N → modVar (K.varTimes N q) q = N * (mom d X 2 ^ 2 - mom d X 1 ^ 4))
    (h11 : ∀ N, 0 < N → K.sqExpTimes N = mom d X 1 ^ 4 * ((N : ℚ) ^ 2 + 2) / 3) :
    Describes K d X where
  expCoef := by rw [h1, E_eq_mom]
  varCoef q := by rw [h2, Var_eq_mom]
  expSq q := by rw [h3]; rfl
  varSq q := by rw [h4, Var_sq_eq_mom]
  varOdd q N n hN hn ho := by rw [h5 q N hN (by omega), square_Var_odd d X n hn hN ho]
  varEven q N n hN hn he := by rw [h6 q N hN (by omega), square_Var_even d X n hn hN he]
  varOne q := by rw [h7, square_Var_one]
  sqExpSquared q N hN := by
    rcases hN with rfl | ⟨h0, h2⟩
    · rw [h8, Finset.sum_range_one, square_E_one]; simp
    · rw [h9 q N h2 h0, Finset.sum_congr rfl (fun n hn => by
        rw [square_E_even d X n (Finset.mem_range.1 hn) h2, mul_pow]), ← Finset.sum_mul, sum_sq_mean]
      have : (N : ℚ) ≠ 0 := by exact_mod_cast h0.ne'
      field_simp
  varTimes q N n hn := by rw [h10 q N (by omega), product_Var d X n hn]
  sqExpTimes N h0 := by
    rw [h11 N h0, Finset.sum_congr rfl (fun n hn => by
      rw [product_E d X n (Finset.mem_range.1 hn), mul_pow]), ← Finset.sum_mul, sum_sq_mean]
    have : (N : ℚ) ≠ 0 := by exact_mod_cast h0.ne'
    field_simp

end general

theorem mom_bit (c : Nat) (hc : c ≠ 0) : mom (uniform Bool) bitValue c = 1 / 2 := by
  rw [mom, E_uniform]; simp [bitValue, hc]

theorem mom_trit (c : Nat) :
    mom (uniform (Fin 3)) tritValue c = ((-1) ^ c + 0 ^ c + 1) / 3 := by
  rw [mom, E_uniform, Fin.sum_univ_three]; norm_num [tritValue]

/-- C96. The constants of the binary kind are the moments of keys of uniform bits. -/
theorem C96_binary : Describes binaryKey (uniform Bool) bitValue := by
  have m1 := mom_bit 1 (by omega)
  have m2 := mom_bit 2 (by omega)
  have m4 := mom_bit 4 (by omega)
  apply describes_of_moments <;> simp only [m1, m2, m4] <;> intros <;>
    simp only [binaryKey, modVar_ofModVar, square]
  · norm_num
  · norm_num
  · rw [if_neg (by omega), modVar_ofModVar]; ring
  · rw [if_neg (by omega), modVar_ofModVar, Nat.cast_sub (by omega)]; push_cast; ring
  · norm_num [modVar_ofModVar]
  · norm_num
  · rw [if_neg (by omega)]; ring
  · ring
  · ring

/-- C96. The constants of the ternary kind are the moments of keys of uniform elements of
`{-1, 0, 1}`. -/
theorem C96_ternary : Describes ternaryKey (uniform (Fin 3)) tritValue := by
  have m1 : mom (uniform (Fin 3)) tritValue 1 = 0 := by rw [mom_trit]; norm_num
  have m2 : mom (uniform (Fin 3)) tritValue 2 = 2 / 3 := by rw [mom_trit]; norm_num
  have m4 : mom (uniform (Fin 3)) tritValue 4 = 2 / 3 := by rw [mom_trit]; norm_num
  apply describes_of_moments <;> simp only [m1, m2, m4] <;> intros <;>
    simp only [ternaryKey, modVar_ofModVar, square]
  · norm_num
  · norm_num
  · rw [if_neg (by omega), modVar_ofModVar]; ring
  · rw [if_neg (by omega), modVar_ofModVar, Nat.cast_sub (by omega)]; push_cast; ring
  · norm_num [modVar_ofModVar]
  · norm_num
  · rw [if_neg (by omega)]; ring
  · ring
  · ring

/-- C96. The constants of the Gaussian kind are the moments of keys whose coefficients have the moments of
order 1, 2 and 4 of a centred normal distribution of standard deviation 3.2. -/
theorem C96_gaussian {α : Type} [Fintype α] (d : Dist α) (X : α → ℚ) (h1 : d.E X = 0)
    (h2 : d.E (fun a => X a ^ 2) = (16 / 5) ^ 2) (h4 : d.E (fun a => X a ^ 4) = 3 * (16 / 5) ^ 4) :
    Describes gaussianKey d X := by
  have m1 : mom d X 1 = 0 := by rw [← E_eq_mom, h1]
  have m2 : mom d X 2 = (16 / 5) ^ 2 := h2
  have m4 : mom d X 4 = 3 * (16 / 5) ^ 4 := h4
  apply describes_of_moments <;> simp only [m1, m2, m4] <;> intros <;>
    simp only [gaussianKey, gaussianVar, gaussianVarSq, modVar_ofModVar, square, gaussianStdev]
  · norm_num
  · norm_num
  · norm_num
  · rw [if_neg (by omega), modVar_ofModVar]; ring
  · rw [if_neg (by omega), modVar_ofModVar]; ring
  · norm_num [modVar_ofModVar]
  · norm_num
  · rw [if_neg (by omega)]; ring
  · ring
  · ring

/-- C96. The constants of the zero kind are the moments of the key of zeros. -/
theorem C96_zero {α : Type} [Fintype α] (d : Dist α) : Describes zeroKey d (fun _ => 0) := by
  have m : ∀ c, c ≠ 0 → mom d (fun _ => (0 : ℚ)) c = 0 := by
    intro c hc; rw [mom, E_congr _ (Y := fun _ => 0) (fun a => by simp [hc]), E_const]
  have m1 := m 1 (by omega)
  have m2 := m 2 (by omega)
  have m4 := m 4 (by omega)
  apply describes_of_moments <;> simp only [m1, m2, m4] <;> intros <;>
    simp only [zeroKey, modVar, ofModVar] <;> norm_num

/-- A finite distribution with these moments: `±3.2` with probability `3/8` each, `±9.6` with probability
`1/72` each, `0` otherwise. -/
def gaussianLike : Dist (Fin 5) where
  p := ![2 / 9, 3 / 8, 3 / 8, 1 / 72, 1 / 72]
  nonneg := by decide +kernel
  total := by decide +kernel

example : Describes gaussianKey gaussianLike ![0, 16 / 5, -16 / 5, 48 / 5, -48 / 5] :=
  C96_gaussian _ _ (by decide +kernel) (by decide +kernel) (by decide +kernel)

-- a concrete coefficient: the square of a binary key of two coefficients has the constant coefficient
-- `s_0² - s_1²`, of variance 1/2
example : (iid 2 (uniform Bool)).Var (squareCoef bitValue 2 0) = 1 / 2 ∧
    modVar (binaryKey.varEven 2 64) 64 = 1 / 2 := by
  have h := C96_binary.varEven 64 2 0 (by omega) (by omega) rfl
  have h' : modVar (binaryKey.varEven 2 64) 64 = 1 / 2 := by
    simp only [binaryKey]; rw [if_neg (by omega), modVar_ofModVar]; norm_num
  exact ⟨by rw [← h, h'], h'⟩

end Verif.Npe
