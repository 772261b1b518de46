import Verif.Float.Bits
/-
Writing a binary64 number as bits and reading it back gives the number.
-/
namespace Verif.Float

/-- The value of the fields of a bit pattern assembled from a sign, an exponent and a significand. -/
theorem fields (s E m : Nat) (hs : s ≤ 1) (hE : E < 2 ^ 11) (hm : m < 2 ^ 52) :
    (signBit (BitVec.ofNat 64 (s * 2 ^ 63 + (E * 2 ^ 52 + m))) = decide (s = 1)) ∧
    expField (BitVec.ofNat 64 (s * 2 ^ 63 + (E * 2 ^ 52 + m))) = E ∧
    fracField (BitVec.ofNat 64 (s * 2 ^ 63 + (E * 2 ^ 52 + m))) = m := by
  have h : (BitVec.ofNat 64 (s * 2 ^ 63 + (E * 2 ^ 52 + m))).toNat = s * 2 ^ 63 + (E * 2 ^ 52 + m) := by
    rw [BitVec.toNat_ofNat]; omega
  unfold signBit expField fracField
  rw [h]
  refine ⟨?_, by omega, by omega⟩
  rw [decide_eq_decide]; omega

/-- A representable number in units of its last place. -/
theorem Rep.scaled {q : ℚ} (h : Rep q) : ∃ k : ℤ, q = (k : ℚ) * 2 ^ ulpExp q ∧ |k| < 2 ^ 53 := by
  have h1 := h.rnd_eq
  refine ⟨rne (q / 2 ^ ulpExp q), h1.symm, ?_⟩
  have h2 := abs_lt_ulp q
  have hp := two_zpow_pos (ulpExp q)
  unfold rnd at h1
  generalize rne (q / 2 ^ ulpExp q) = k at *
  have h3 : |q| = (|k| : ℤ) * 2 ^ ulpExp q := by
    conv_lhs => rw [← h1]
    rw [abs_mul, abs_of_pos hp]; push_cast; rfl
  rw [h3] at h2
  have := lt_of_mul_lt_mul_right h2 hp.le
  exact_mod_cast this

/-- Above the smallest exponent the significand has its leading bit. -/
theorem leading {q : ℚ} {k : ℤ} (hq : q ≠ 0) (hk : q = (k : ℚ) * 2 ^ ulpExp q)
    (he : -1074 < ulpExp q) : 2 ^ 52 ≤ |k| := by
  have hlog : (2 : ℚ) ^ Int.log 2 |q| ≤ |q| := by
    have := Int.zpow_log_le_self (R := ℚ) (b := 2) (r := |q|) (by norm_num) (abs_pos.2 hq)
    simpa using this
  have hu : Int.log 2 |q| = 52 + ulpExp q := by
    unfold ulpExp at he ⊢
    rcases le_total (Int.log 2 |q| - 52) (-1074) with hm | hm
    · rw [max_eq_right hm] at he; omega
    · rw [max_eq_left hm]; omega
  rw [hu, zpow_add₀ (by norm_num)] at hlog
  have hp := two_zpow_pos (ulpExp q)
  have h3 : |q| = (|k| : ℤ) * 2 ^ ulpExp q := by
    conv_lhs => rw [hk]
    rw [abs_mul, abs_of_pos hp]; push_cast; rfl
  rw [h3] at hlog
  have := le_of_mul_le_mul_right hlog hp
  exact_mod_cast this

/-- `from_bits (to_bits x) = x` for every binary64 number. -/
theorem ofBits_toBits {q : ℚ} (h : Rep q) (hb : |q| < 2 ^ (1024 : ℤ)) :
    ofBits (toBits (.fin q)) = .fin q := by
  obtain ⟨k, hk, hk53⟩ := h.scaled
  have hp := two_zpow_pos (ulpExp q)
  have hm : ⌊|q| / 2 ^ ulpExp q⌋.toNat = k.natAbs := by
    have : |q| / 2 ^ ulpExp q = ((k.natAbs : ℤ) : ℚ) := by
      conv_lhs => rw [hk]
      rw [abs_mul, abs_of_pos (two_zpow_pos _), Int.natCast_natAbs]
      push_cast
      rw [← hk]; field_simp
    rw [this, Int.floor_intCast]; omega
  have hsgn : (if q < 0 then 1 else 0 : Nat) ≤ 1 := by split <;> omega
  have hval : (if (decide ((if q < 0 then 1 else 0 : Nat) = 1)) = true then (-1 : ℚ) else 1) *
      (k.natAbs : ℚ) = k := by
    have hn : (k.natAbs : ℚ) = |(k : ℚ)| := by
      rw [← Int.cast_natCast, Int.natCast_natAbs]; push_cast; rfl
    rw [hn]
    by_cases h0 : q < 0
    · simp only [h0, if_true, decide_true]
      have : (k : ℚ) ≤ 0 := by
        by_contra hc
        push Not at hc
        have := mul_pos hc hp
        linarith
      rw [abs_of_nonpos this]; ring
    · simp only [h0, if_false, zero_ne_one, decide_false]
      have : (0 : ℚ) ≤ k := by
        by_contra hc
        push Not at hc
        have := mul_neg_of_neg_of_pos hc hp
        linarith
      simp [abs_of_nonneg this]
  have hs : (if q < 0 then 2 ^ 63 else 0 : Nat) = (if q < 0 then 1 else 0) * 2 ^ 63 := by
    split <;> omega
  unfold toBits magBits
  dsimp only
  rw [hm, hs]
  generalize (if q < 0 then 1 else 0 : Nat) = s at *
  have hk' : k.natAbs < 2 ^ 53 := by rw [Int.abs_eq_natAbs] at hk53; omega
  split
  · rename_i hlt
    have he : ulpExp q = -1074 ∨ q = 0 := by
      by_contra hc
      push Not at hc
      have h1 := ulp_ge q
      have := leading hc.2 hk (by omega)
      rw [Int.abs_eq_natAbs] at this
      omega
    obtain ⟨f1, f2, f3⟩ := fields s 0 k.natAbs hsgn (by norm_num) hlt
    rw [Nat.zero_mul, Nat.zero_add] at f1 f2 f3
    unfold ofBits
    dsimp only
    rw [f1, f2, f3, if_neg (by norm_num), if_pos rfl, hval]
    rcases he with he | he
    · rw [he] at hk; rw [hk]
    · have : k = 0 := by
        rw [he] at hk
        have := (mul_eq_zero.1 hk.symm).resolve_right (two_zpow_pos _).ne'
        exact_mod_cast this
      rw [this, he]; simp
  · rename_i hge
    push Not at hge
    have hehi : ulpExp q < 972 := by
      by_contra hc
      push Not at hc
      have h1 : (2 : ℚ) ^ (1024 : ℤ) ≤ |q| := by
        conv_rhs => rw [hk]
        rw [abs_mul, abs_of_pos (two_zpow_pos _)]
        have h2 : (2 : ℚ) ^ (52 : ℤ) ≤ |(k : ℚ)| := by
          have : (2 : ℤ) ^ 52 ≤ |k| := by rw [Int.abs_eq_natAbs]; omega
          rw [show (2 : ℚ) ^ (52 : ℤ) = 2 ^ 52 from rfl]
          exact_mod_cast this
        calc (2 : ℚ) ^ (1024 : ℤ) = 2 ^ (52 : ℤ) * 2 ^ (972 : ℤ) := by
              rw [← zpow_add₀ (by norm_num)]; norm_num
          _ ≤ 2 ^ (52 : ℤ) * 2 ^ ulpExp q :=
              mul_le_mul_of_nonneg_left (zpow_le_zpow_right₀ (by norm_num) hc) (two_zpow_pos _).le
          _ ≤ |(k : ℚ)| * 2 ^ ulpExp q := mul_le_mul_of_nonneg_right h2 hp.le
      linarith
    have helo := ulp_ge q
    obtain ⟨m, hmm⟩ : ∃ m, k.natAbs = 2 ^ 52 + m := ⟨k.natAbs - 2 ^ 52, by omega⟩
    obtain ⟨E, hE⟩ : ∃ E : ℕ, ulpExp q + 1075 = E := ⟨(ulpExp q + 1075).toNat, by omega⟩
    have e1 : (ulpExp q + 1074).toNat * 2 ^ 52 + k.natAbs = E * 2 ^ 52 + m := by
      have : (ulpExp q + 1074).toNat + 1 = E := by omega
      rw [hmm, ← this]; ring
    rw [e1]
    obtain ⟨f1, f2, f3⟩ := fields s E m hsgn (by omega) (by omega)
    unfold ofBits
    dsimp only
    rw [f1, f2, f3, if_neg (by omega), if_neg (by omega)]
    have e2 : (2 : ℚ) ^ 52 + (m : ℚ) = (k.natAbs : ℚ) := by rw [hmm]; push_cast; rfl
    rw [e2, hval, show (E : ℤ) - 1075 = ulpExp q by omega, ← hk]

example : ofBits (toBits (.fin (-5 / 2))) = .fin (-5 / 2) :=
  ofBits_toBits ⟨-5, -1, by norm_num, by norm_num, by norm_num⟩ (by
    rw [abs_of_neg (by norm_num)]
    exact lt_of_lt_of_le (by norm_num : (-(-5 / 2) : ℚ) < 2 ^ (2 : ℤ))
      (zpow_le_zpow_right₀ (by norm_num) (by norm_num)))

end Verif.Float
