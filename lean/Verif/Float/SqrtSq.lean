import Verif.Float.Sqrt
import Verif.Float.BitsLemmas
/-
The square root of the rounded square of a number is the number.
-/
namespace Verif.Float

theorem log_eq {q : ℚ} {n : ℤ} (h1 : (2 : ℚ) ^ n ≤ q) (h2 : q < 2 ^ (n + 1)) : Int.log 2 q = n := by
  have hq : 0 < q := lt_of_lt_of_le (two_zpow_pos n) h1
  apply le_antisymm
  · have := (Int.lt_zpow_iff_log_lt (R := ℚ) (b := 2) (x := n + 1) (by norm_num) hq).1 (by exact_mod_cast h2)
    omega
  · exact (Int.zpow_le_iff_le_log (R := ℚ) (b := 2) (by norm_num) hq).1 (by exact_mod_cast h1)

/-- A positive number that is not subnormal has a significand of 53 bits. -/
theorem Rep.normal {q : ℚ} (h : Rep q) (hq : (2 : ℚ) ^ (-1022 : ℤ) ≤ q) :
    ∃ (k : ℕ) (e : ℤ), q = k * 2 ^ e ∧ 2 ^ 52 ≤ k ∧ k < 2 ^ 53 ∧ ulpExp q = e := by
  have hq0 : 0 < q := lt_of_lt_of_le (two_zpow_pos _) hq
  obtain ⟨k, hk, hk2⟩ := h.scaled
  have hL1 : (2 : ℚ) ^ Int.log 2 q ≤ q := by
    have := Int.zpow_log_le_self (R := ℚ) (b := 2) (r := q) (by norm_num) hq0
    simpa using this
  have hL : -1022 ≤ Int.log 2 q :=
    (Int.zpow_le_iff_le_log (R := ℚ) (b := 2) (by norm_num) hq0).1 (by exact_mod_cast hq)
  have hu : ulpExp q = Int.log 2 q - 52 := by
    rw [ulpExp, abs_of_pos hq0]
    exact max_eq_left (by omega)
  have hp := two_zpow_pos (ulpExp q)
  have hk0 : 0 < k := by
    by_contra hc
    have : (k : ℚ) ≤ 0 := by exact_mod_cast not_lt.1 hc
    nlinarith
  rw [abs_of_pos hk0] at hk2
  obtain ⟨n, rfl⟩ := Int.eq_ofNat_of_zero_le hk0.le
  refine ⟨n, ulpExp q, by exact_mod_cast hk, ?_, by exact_mod_cast hk2, rfl⟩
  have h3 : (2 : ℚ) ^ 52 * 2 ^ ulpExp q ≤ n * 2 ^ ulpExp q := by
    have e1 : (2 : ℚ) ^ 52 * 2 ^ ulpExp q = 2 ^ Int.log 2 q := by
      rw [hu, show (2 : ℚ) ^ 52 = 2 ^ (52 : ℤ) from rfl, ← zpow_add₀ (by norm_num)]
      congr 1
      omega
    rw [e1]
    calc _ ≤ q := hL1
      _ = _ := by exact_mod_cast hk
  have := le_of_mul_le_mul_right h3 hp
  exact_mod_cast this

/-- The scaled square root. -/
theorem sqrtRnd_eq {y : ℚ} {k : ℕ} {e : ℤ} (hk : 1 ≤ k) (he : sqrtExp y = e)
    (h1 : ((k : ℚ) - 1 / 2) ^ 2 < y / (2 ^ e) ^ 2) (h2 : y / (2 ^ e) ^ 2 < ((k : ℚ) + 1 / 2) ^ 2) : sqrtRnd y = k * 2 ^ e := by
  unfold sqrtRnd
  rw [he]
  dsimp only
  generalize y / (2 ^ e) ^ 2 = s at *
  have hkq : (1 : ℚ) ≤ k := by exact_mod_cast hk
  have hs0 : 0 < s := lt_of_le_of_lt (by positivity) h1
  have hfl : ((⌊s⌋.toNat : ℕ) : ℤ) = ⌊s⌋ := Int.toNat_of_nonneg (Int.floor_nonneg.2 hs0.le)
  have hf1 : ((Nat.sqrt ⌊s⌋.toNat : ℕ) : ℚ) ^ 2 ≤ s := by
    have h := Nat.sqrt_le' ⌊s⌋.toNat
    have h2 : ((⌊s⌋.toNat : ℕ) : ℚ) ≤ s := by
      have : (((⌊s⌋.toNat : ℕ) : ℤ) : ℚ) ≤ s := by rw [hfl]; exact Int.floor_le s
      exact_mod_cast this
    refine le_trans ?_ h2
    exact_mod_cast h
  have hf2 : s < ((Nat.sqrt ⌊s⌋.toNat : ℕ) + 1 : ℚ) ^ 2 := by
    have h := Nat.lt_succ_sqrt' ⌊s⌋.toNat
    have h3 : (((⌊s⌋.toNat : ℕ) : ℤ) : ℚ) + 1 ≤ ((Nat.sqrt ⌊s⌋.toNat : ℕ) + 1 : ℚ) ^ 2 := by
      exact_mod_cast h
    have h4 := Int.lt_floor_add_one s
    rw [hfl] at h3
    linarith
  generalize Nat.sqrt ⌊s⌋.toNat = f at *
  have hf0 : (0 : ℚ) ≤ f := Nat.cast_nonneg f
  have c1 : (f : ℚ) < k + 1 / 2 := lt_of_pow_lt_pow_left₀ 2 (by linarith) (lt_of_le_of_lt hf1 h2)
  have c2 : (k : ℚ) - 1 / 2 < f + 1 := lt_of_pow_lt_pow_left₀ 2 (by linarith) (h1.trans hf2)
  have c3 : f ≤ k := by
    have : (f : ℚ) < (k : ℚ) + 1 := by linarith
    have : f < k + 1 := by exact_mod_cast this
    omega
  have c4 : k ≤ f + 1 := by
    have : (k : ℚ) < (f : ℚ) + 2 := by linarith
    have : k < f + 2 := by exact_mod_cast this
    omega
  rcases (show f = k ∨ f + 1 = k by omega) with rfl | hfk
  · rw [if_pos h2]
  · have hfk' : (k : ℚ) = f + 1 := by rw [← hfk]; push_cast; ring
    have h3 : ((f : ℚ) + 1 / 2) ^ 2 < s := by
      have : (k : ℚ) - 1 / 2 = f + 1 / 2 := by rw [hfk']; ring
      rw [← this]; exact h1
    rw [if_neg (not_lt.2 h3.le), if_pos h3, hfk]

theorem num1 (c : ℚ) (h : 2 ^ 52 ≤ c) : (2 : ℚ) ^ (104 : ℤ) ≤ c ^ 2 := by
  norm_num at h ⊢; nlinarith

theorem num2 (c : ℚ) (h : 2 ^ 52 ≤ c) : (2 : ℚ) ^ (52 : ℤ) / 2 < c - 1 / 4 := by
  norm_num at h ⊢; linarith

theorem num3 (c : ℚ) (h : 2 ^ 52 ≤ c) (h1 : c + 1 ≤ 2 ^ 53) : (c + 1 / 2) ^ 2 < (2 : ℚ) ^ (106 : ℤ) := by
  norm_num at h h1 ⊢; nlinarith

theorem num4 (c : ℚ) (h : 2 ^ 52 + 1 ≤ c) : (2 : ℚ) ^ (53 : ℤ) / 2 < c - 1 / 4 := by
  norm_num at h ⊢; linarith

theorem num5 (c : ℚ) (h : 2 ^ 52 ≤ c) (h1 : 2 ^ 105 ≤ c ^ 2) : 2 ^ 52 + 1 ≤ c := by
  by_contra hc
  norm_num at h h1 hc
  nlinarith

theorem sqrtRnd_sq {x : ℚ} (hx : Rep x) (h : (2 : ℚ) ^ (-500 : ℤ) ≤ x) : sqrtRnd (rnd (x * x)) = x := by
  obtain ⟨k, e, rfl, hk1, hk2, hue⟩ := hx.normal (le_trans (zpow_le_zpow_right₀ (by norm_num) (by norm_num)) h)
  have hp := two_zpow_pos e
  have hkq : (2 : ℚ) ^ 52 ≤ k := by exact_mod_cast hk1
  have hkq2 : (k : ℚ) + 1 ≤ 2 ^ 53 := by exact_mod_cast hk2
  have he : -553 < e := by
    have h1 : (2 : ℚ) ^ (-500 : ℤ) < 2 ^ (53 + e) := by
      rw [zpow_add₀ (by norm_num)]
      refine lt_of_le_of_lt h (mul_lt_mul_of_pos_right ?_ hp)
      exact_mod_cast hk2
    have := (zpow_lt_zpow_iff_right₀ (by norm_num : (1 : ℚ) < 2)).1 h1
    omega
  have hsq : ((k : ℚ) * 2 ^ e) * (k * 2 ^ e) = (k : ℚ) ^ 2 * (2 ^ e) ^ 2 := by ring
  have hpp : ((2 : ℚ) ^ e) ^ 2 = 2 ^ (2 * e) := by rw [← zpow_natCast, ← zpow_mul]; congr 1; push_cast; ring
  rw [hsq]
  have hpos : (0 : ℚ) < (k : ℚ) ^ 2 * (2 ^ e) ^ 2 := by positivity
  -- the rounding error
  have herr : |rnd ((k : ℚ) ^ 2 * (2 ^ e) ^ 2) - (k : ℚ) ^ 2 * (2 ^ e) ^ 2| < ((k : ℚ) - 1 / 4) * (2 ^ e) ^ 2 := by
    refine lt_of_le_of_lt (abs_rnd_sub_le_ulp _) ?_
    by_cases hc : (k : ℚ) ^ 2 < 2 ^ 105
    · have hu : ulpExp ((k : ℚ) ^ 2 * (2 ^ e) ^ 2) = 52 + 2 * e := by
        rw [ulpExp, abs_of_pos hpos, log_eq (n := 104 + 2 * e)]
        · rw [max_eq_left (by omega)]; omega
        · rw [zpow_add₀ (by norm_num), ← hpp]
          apply mul_le_mul_of_nonneg_right _ (by positivity)
          exact num1 _ hkq
        · rw [show 104 + 2 * e + 1 = 105 + 2 * e by ring, zpow_add₀ (by norm_num), ← hpp]
          apply mul_lt_mul_of_pos_right _ (by positivity)
          exact_mod_cast hc
      rw [hu, zpow_add₀ (by norm_num), ← hpp]
      have : (0 : ℚ) < (2 ^ e) ^ 2 := by positivity
      have h2 : (2 : ℚ) ^ (52 : ℤ) / 2 < (k : ℚ) - 1 / 4 := num2 _ hkq
      calc (2 : ℚ) ^ (52 : ℤ) * (2 ^ e) ^ 2 / 2 = 2 ^ (52 : ℤ) / 2 * (2 ^ e) ^ 2 := by ring
        _ < _ := mul_lt_mul_of_pos_right h2 this
    · rw [not_lt] at hc
      have hu : ulpExp ((k : ℚ) ^ 2 * (2 ^ e) ^ 2) = 53 + 2 * e := by
        rw [ulpExp, abs_of_pos hpos, log_eq (n := 105 + 2 * e)]
        · rw [max_eq_left (by omega)]; omega
        · rw [zpow_add₀ (by norm_num), ← hpp]
          apply mul_le_mul_of_nonneg_right _ (by positivity)
          exact_mod_cast hc
        · rw [show 105 + 2 * e + 1 = 106 + 2 * e by ring, zpow_add₀ (by norm_num), ← hpp]
          apply mul_lt_mul_of_pos_right _ (by positivity)
          have h0 : (0 : ℚ) ≤ k := Nat.cast_nonneg k
          exact lt_of_le_of_lt (by nlinarith) (num3 _ hkq hkq2)
      rw [hu, zpow_add₀ (by norm_num), ← hpp]
      have : (0 : ℚ) < (2 ^ e) ^ 2 := by positivity
      have hk3 := num5 _ hkq hc
      have h2 : (2 : ℚ) ^ (53 : ℤ) / 2 < (k : ℚ) - 1 / 4 := num4 _ hk3
      calc (2 : ℚ) ^ (53 : ℤ) * (2 ^ e) ^ 2 / 2 = 2 ^ (53 : ℤ) / 2 * (2 ^ e) ^ 2 := by ring
        _ < _ := mul_lt_mul_of_pos_right h2 this
  have hlow : (2 : ℚ) ^ (104 + 2 * e) ≤ rnd ((k : ℚ) ^ 2 * (2 ^ e) ^ 2) := by
    apply le_rnd_of_rep (rep_pow _ (by omega))
    rw [zpow_add₀ (by norm_num), ← hpp]
    apply mul_le_mul_of_nonneg_right _ (by positivity)
    exact num1 _ hkq
  generalize rnd ((k : ℚ) ^ 2 * (2 ^ e) ^ 2) = y at *
  have hpp0 : (0 : ℚ) < (2 ^ e) ^ 2 := by positivity
  rw [abs_lt] at herr
  have h1 : ((k : ℚ) - 1 / 2) ^ 2 < y / (2 ^ e) ^ 2 := by
    rw [lt_div_iff₀ hpp0]; nlinarith [herr.1]
  have h2 : y / (2 ^ e) ^ 2 < ((k : ℚ) + 1 / 2) ^ 2 := by
    rw [div_lt_iff₀ hpp0]; nlinarith [herr.2]
  refine sqrtRnd_eq (by omega) ?_ h1 h2
  have hup : y < 2 ^ (106 + 2 * e) := by
    rw [zpow_add₀ (by norm_num), ← hpp]
    rw [div_lt_iff₀ hpp0] at h2
    refine h2.trans (mul_lt_mul_of_pos_right ?_ hpp0)
    exact num3 _ hkq hkq2
  have hy0 : 0 < y := lt_of_lt_of_le (two_zpow_pos _) hlow
  have l1 := (Int.zpow_le_iff_le_log (R := ℚ) (b := 2) (by norm_num) hy0).1 (by exact_mod_cast hlow)
  have l2 := (Int.lt_zpow_iff_log_lt (R := ℚ) (b := 2) (by norm_num) hy0).1 (by exact_mod_cast hup)
  unfold sqrtExp
  omega

end Verif.Float
