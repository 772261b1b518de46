import Verif.Float.Ieee
import Mathlib.Tactic.Zify
/-
Representable numbers: rounding is the identity on them, its results are representable, and it
respects the order with respect to them. Exactness of the operations used by the torus conversions.
-/
namespace Verif.Float

/-- A binary64 number without upper bound on the exponent. -/
def Rep (q : ℚ) : Prop := ∃ k e : ℤ, |k| ≤ 2 ^ 53 ∧ -1074 ≤ e ∧ q = (k : ℚ) * 2 ^ e

theorem rnd_pow (e : ℤ) (s : ℤ) (hs : |s| = 1) (he : -1074 ≤ e) :
    rnd ((s : ℚ) * 2 ^ e) = (s : ℚ) * 2 ^ e :=
  rnd_exact s e (by rw [hs]; norm_num) he

theorem Rep.rnd_eq {q : ℚ} (h : Rep q) : rnd q = q := by
  obtain ⟨k, e, hk, he, rfl⟩ := h
  rcases lt_or_eq_of_le hk with hk' | hk'
  · exact rnd_exact k e hk' he
  · have : ∃ s : ℤ, |s| = 1 ∧ k = s * 2 ^ 53 := by
      rcases le_total 0 k with h0 | h0
      · exact ⟨1, by norm_num, by rw [abs_of_nonneg h0] at hk'; rw [hk']; norm_num⟩
      · exact ⟨-1, by norm_num, by rw [abs_of_nonpos h0] at hk'; omega⟩
    obtain ⟨s, hs, rfl⟩ := this
    have e1 : ((s * 2 ^ 53 : ℤ) : ℚ) * 2 ^ e = (s : ℚ) * 2 ^ (53 + e) := by
      rw [zpow_add₀ (by norm_num)]; push_cast; rw [mul_assoc]
    rw [e1]
    exact rnd_pow _ s hs (by omega)

theorem ulp_ge (q : ℚ) : -1074 ≤ ulpExp q := le_max_right _ _

theorem abs_lt_ulp (q : ℚ) : |q| < 2 ^ 53 * 2 ^ ulpExp q := by
  by_cases hq : q = 0
  · subst hq; rw [abs_zero]; exact mul_pos (by norm_num) (two_zpow_pos _)
  have h := Int.lt_zpow_succ_log_self (R := ℚ) (b := 2) (by norm_num) |q|
  have : (2 : ℚ) ^ (Int.log 2 |q| + 1) ≤ 2 ^ 53 * 2 ^ ulpExp q := by
    rw [show (2 : ℚ) ^ 53 = 2 ^ (53 : ℤ) from rfl, ← zpow_add₀ (by norm_num)]
    apply zpow_le_zpow_right₀ (by norm_num)
    unfold ulpExp
    have := le_max_left (Int.log 2 |q| - 52) (-1074)
    omega
  push_cast at h
  exact h.trans_le this

theorem rep_rnd (q : ℚ) : Rep (rnd q) := by
  refine ⟨rne (q / 2 ^ ulpExp q), ulpExp q, ?_, ulp_ge q, rfl⟩
  have h := abs_lt_ulp q
  generalize ulpExp q = e at h
  have hp := two_zpow_pos e
  have h1 := abs_rne_sub_le (q / 2 ^ e)
  have h2 : |q / 2 ^ e| < 2 ^ 53 := by
    rw [abs_div, abs_of_pos hp, div_lt_iff₀ hp]; exact h
  have h3 : |(rne (q / 2 ^ e) : ℚ)| < 2 ^ 53 + 1 := by
    have := abs_add_le ((rne (q / 2 ^ e) : ℚ) - q / 2 ^ e) (q / 2 ^ e)
    rw [sub_add_cancel] at this
    linarith
  have h4 : |rne (q / 2 ^ e)| < 2 ^ 53 + 1 := by exact_mod_cast h3
  omega

theorem rnd_idem (q : ℚ) : rnd (rnd q) = rnd q := (rep_rnd q).rnd_eq

/-! ### Order -/

theorem rne_mono_int (n : ℤ) (q : ℚ) (h : (n : ℚ) ≤ q) : n ≤ rne q := by
  have h1 : n ≤ ⌊q⌋ := Int.le_floor.2 h
  unfold rne
  dsimp only
  split_ifs <;> omega

theorem rne_neg (q : ℚ) : rne (-q) = -rne q := by
  by_cases hi : ∃ n : ℤ, q = n
  · obtain ⟨n, rfl⟩ := hi
    rw [rne_intCast, ← Int.cast_neg, rne_intCast]
  have hf : ⌊-q⌋ = -⌊q⌋ - 1 := by
    have h1 := Int.floor_le q
    have h2 := Int.lt_floor_add_one q
    have h3 : (⌊q⌋ : ℚ) ≠ q := fun h => hi ⟨_, h.symm⟩
    rw [Int.floor_eq_iff]; push_cast
    constructor
    · linarith
    · have := lt_of_le_of_ne h1 h3; linarith
  unfold rne
  dsimp only
  rw [hf]
  push_cast
  generalize hr : q - (⌊q⌋ : ℚ) = r
  have e : -q - (-(⌊q⌋ : ℚ) - 1) = 1 - r := by rw [← hr]; ring
  rw [e]
  rcases lt_trichotomy r (1 / 2) with h | h | h
  · rw [if_neg (by linarith), if_pos (by linarith), if_pos h]; ring
  · have h1 : ¬ (1 - r < 1 / 2) := by linarith
    have h2 : ¬ (1 / 2 < 1 - r) := by linarith
    have h3 : ¬ (r < 1 / 2) := by linarith
    have h4 : ¬ (1 / 2 < r) := by linarith
    simp only [h1, h2, h3, h4, if_false]
    split_ifs <;> omega
  · rw [if_pos (by linarith), if_neg (by linarith), if_pos (by linarith)]; ring

theorem rnd_neg (q : ℚ) : rnd (-q) = -rnd q := by
  unfold rnd
  have : ulpExp (-q) = ulpExp q := by unfold ulpExp; rw [abs_neg]
  rw [this, neg_div, rne_neg]; push_cast; ring

theorem Rep.neg {q : ℚ} (h : Rep q) : Rep (-q) := by
  obtain ⟨k, e, hk, he, rfl⟩ := h
  exact ⟨-k, e, by rwa [abs_neg], he, by push_cast; ring⟩

/-- Rounding a number not below a representable one does not go below it. -/
theorem le_rnd_of_rep {b q : ℚ} (hb : Rep b) (h : b ≤ q) : b ≤ rnd q := by
  -- it is enough that `b` is a multiple of the unit of `q`
  have grid : ∀ (k e : ℤ), ulpExp q ≤ e → (k : ℚ) * 2 ^ e ≤ q → (k : ℚ) * 2 ^ e ≤ rnd q := by
    intro k e he hle
    obtain ⟨n, hn⟩ : ∃ n : ℕ, e = ulpExp q + n := ⟨(e - ulpExp q).toNat, by omega⟩
    unfold rnd
    generalize ulpExp q = u at *
    have hp := two_zpow_pos u
    have e1 : (k : ℚ) * 2 ^ e = ((k * 2 ^ n : ℤ) : ℚ) * 2 ^ u := by
      rw [hn, zpow_add₀ (by norm_num), zpow_natCast]; push_cast; ring
    rw [e1] at hle ⊢
    apply mul_le_mul_of_nonneg_right _ hp.le
    exact_mod_cast rne_mono_int _ _ ((le_div_iff₀ hp).2 hle)
  obtain ⟨k, e, hk, he, rfl⟩ := hb
  by_cases hue : ulpExp q ≤ e
  · exact grid k e hue h
  have hu : ulpExp q = Int.log 2 |q| - 52 := by
    unfold ulpExp at hue ⊢
    rcases le_total (Int.log 2 |q| - 52) (-1074) with hm | hm
    · rw [max_eq_right hm] at hue; omega
    · exact max_eq_left hm
  by_cases hq0 : q = 0
  · subst hq0
    have : rnd 0 = 0 := by
      have := rnd_int 0 (by norm_num)
      simpa using this
    rw [this]; exact h
  have hlog : (2 : ℚ) ^ Int.log 2 |q| ≤ |q| := by
    have := Int.zpow_log_le_self (R := ℚ) (b := 2) (r := |q|) (by norm_num) (abs_pos.2 hq0)
    simpa using this
  have hbl : |(k : ℚ) * 2 ^ e| ≤ 2 ^ Int.log 2 |q| := by
    rw [abs_mul, abs_of_pos (two_zpow_pos e)]
    have h1 : |(k : ℚ)| ≤ 2 ^ (53 : ℤ) := by
      rw [show (2 : ℚ) ^ (53 : ℤ) = 2 ^ 53 from rfl]; exact_mod_cast hk
    calc |(k : ℚ)| * 2 ^ e ≤ 2 ^ (53 : ℤ) * 2 ^ e :=
          mul_le_mul_of_nonneg_right h1 (two_zpow_pos e).le
      _ = 2 ^ (53 + e) := (zpow_add₀ (by norm_num) _ _).symm
      _ ≤ 2 ^ Int.log 2 |q| := zpow_le_zpow_right₀ (by norm_num) (by omega)
  rcases lt_or_gt_of_ne hq0 with hneg | hpos
  · rw [abs_of_neg hneg] at hlog hbl hu
    have hb := neg_le_of_abs_le hbl
    have heq : q = -(2 : ℚ) ^ Int.log 2 (-q) := by linarith
    have hbq : (k : ℚ) * 2 ^ e = q := by linarith
    have := grid (-1) (Int.log 2 (-q)) (by omega) (by push_cast; linarith)
    push_cast at this
    linarith
  · rw [abs_of_pos hpos] at hlog hbl hu
    have hb := le_of_abs_le hbl
    have := grid 1 (Int.log 2 q) (by omega) (by push_cast; linarith)
    push_cast at this
    linarith

/-- Rounding a number not above a representable one does not go above it. -/
theorem rnd_le_of_rep {b q : ℚ} (hb : Rep b) (h : q ≤ b) : rnd q ≤ b := by
  have := le_rnd_of_rep hb.neg (neg_le_neg h)
  rw [rnd_neg] at this
  linarith

theorem rnd_nonneg {q : ℚ} (h : 0 ≤ q) : 0 ≤ rnd q :=
  le_rnd_of_rep ⟨0, 0, by norm_num, by norm_num, by norm_num⟩ h

/-! ### Exact operations -/

/-- Multiplying by a power of two is exact, but for underflow. -/
theorem Rep.mul_pow {q : ℚ} (h : Rep q) (n : ℕ) : Rep (q * 2 ^ (n : ℤ)) := by
  obtain ⟨k, e, hk, he, rfl⟩ := h
  exact ⟨k, e + n, hk, by omega, by rw [zpow_add₀ (by norm_num)]; ring⟩

/-- Subtracting the nearest integer is exact. -/
theorem Rep.sub_round {q : ℚ} (h : Rep q) (r : ℤ) (hr : |q - r| ≤ 1 / 2)
    (hr0 : |q| < 1 / 2 → r = 0) : Rep (q - r) := by
  obtain ⟨k, e, hk, he, rfl⟩ := h
  by_cases he0 : 0 ≤ e
  · -- an integer
    obtain ⟨n, hn⟩ : ∃ n : ℕ, e = n := ⟨e.toNat, by omega⟩
    subst hn
    rw [zpow_natCast] at hr ⊢
    have h1 : ((k * 2 ^ n - r : ℤ) : ℚ) = (k : ℚ) * 2 ^ n - r := by push_cast; ring
    rw [← h1] at hr ⊢
    have h2 : |k * 2 ^ n - r| < 1 := by
      have : |((k * 2 ^ n - r : ℤ) : ℚ)| < 1 := by linarith
      exact_mod_cast this
    rw [Int.abs_lt_one_iff.1 h2]
    exact ⟨0, 0, by norm_num, by norm_num, by norm_num⟩
  · by_cases hsmall : |(k : ℚ) * 2 ^ e| < 1 / 2
    · rw [hr0 hsmall]
      exact ⟨k, e, hk, he, by push_cast; ring⟩
    · obtain ⟨n, hn⟩ : ∃ n : ℕ, e = -(n : ℤ) := ⟨(-e).toNat, by omega⟩
      subst hn
      rw [zpow_neg, zpow_natCast] at hr hsmall ⊢
      have hp : (0 : ℚ) < 2 ^ n := by positivity
      refine ⟨k - r * 2 ^ n, -(n : ℤ), ?_, he, ?_⟩
      · have hn54 : n ≤ 54 := by
          by_contra hc
          apply hsmall
          rw [abs_mul, abs_of_pos (inv_pos.2 hp), ← div_eq_mul_inv, div_lt_div_iff₀ hp (by norm_num)]
          have h1 : |(k : ℚ)| ≤ 2 ^ 53 := by exact_mod_cast hk
          have h2 : (2 : ℚ) ^ 55 ≤ 2 ^ n := pow_le_pow_right₀ (by norm_num) (by omega)
          have h3 : (2 : ℚ) ^ 55 = 4 * 2 ^ 53 := by norm_num
          have h4 : (0 : ℚ) < 2 ^ 53 := by norm_num
          linarith
        have h1 : |(k : ℚ) - r * 2 ^ n| ≤ 2 ^ 53 := by
          have e1 : (k : ℚ) - r * 2 ^ n = ((k : ℚ) * (2 ^ n)⁻¹ - r) * 2 ^ n := by field_simp
          rw [e1, abs_mul, abs_of_pos hp]
          have h2 : (2 : ℚ) ^ n ≤ 2 ^ 54 := pow_le_pow_right₀ (by norm_num) hn54
          calc |(k : ℚ) * (2 ^ n)⁻¹ - r| * 2 ^ n ≤ 1 / 2 * 2 ^ n :=
                mul_le_mul_of_nonneg_right hr hp.le
            _ ≤ 1 / 2 * 2 ^ 54 := by linarith
            _ = 2 ^ 53 := by norm_num
        exact_mod_cast h1
      · rw [zpow_neg, zpow_natCast]; push_cast; field_simp

/-- An integer of absolute value at most `2^53` is representable. -/
theorem rep_int (k : ℤ) (h : |k| ≤ 2 ^ 53) : Rep k := ⟨k, 0, h, by norm_num, by simp⟩

theorem rep_pow (n : ℤ) (h : -1074 ≤ n) : Rep (2 ^ n) :=
  ⟨1, n, by norm_num, h, by simp⟩

/-- `f64::round` of a finite number: an integer within one half, zero below one half. -/
theorem round_fin (q : ℚ) : ∃ r : ℤ, F64.round (.fin q) = .fin r ∧ |q - r| ≤ 1 / 2 ∧
    (|q| < 1 / 2 → r = 0) := by
  unfold F64.round
  dsimp only
  split
  · rename_i h
    refine ⟨⌊q + 1 / 2⌋, rfl, ?_, ?_⟩
    · have h1 := Int.floor_le (q + 1 / 2)
      have h2 := Int.lt_floor_add_one (q + 1 / 2)
      rw [abs_le]; constructor <;> linarith
    · intro hq
      rw [abs_of_nonneg h] at hq
      rw [Int.floor_eq_iff]; push_cast; constructor <;> linarith
  · rename_i h
    push Not at h
    refine ⟨⌈q - 1 / 2⌉, rfl, ?_, ?_⟩
    · have h1 := Int.le_ceil (q - 1 / 2)
      have h2 := Int.ceil_lt_add_one (q - 1 / 2)
      rw [abs_le]; constructor <;> linarith
    · intro hq
      rw [abs_of_neg h] at hq
      rw [Int.ceil_eq_iff]; push_cast; constructor <;> linarith

set_option exponentiation.threshold 2000 in
theorem pow_le_1022 (n : ℕ) (h : n ≤ 1022) : (2 : ℚ) ^ n ≤ 2 ^ 1022 :=
  pow_le_pow_right₀ (by norm_num) h

theorem one_le_1022 : (1 : ℚ) ≤ 2 ^ 1022 := by
  have := pow_le_1022 0 (by norm_num)
  rwa [pow_zero] at this

/-- A representable result that does not overflow is exact. -/
theorem ofRat_rep {q : ℚ} (h : Rep q) (hb : |q| ≤ 2 ^ 1022) : ofRat q = .fin q := by
  rw [ofRat_fin q hb, h.rnd_eq]

theorem powi2_eq (n : ℤ) (h1 : -1074 ≤ n) (h2 : n ≤ 1022) : F64.powi2 n = .fin (2 ^ n) := by
  unfold F64.powi2
  apply ofRat_rep (rep_pow n h1)
  rw [abs_of_pos (two_zpow_pos n), ← zpow_natCast]
  exact zpow_le_zpow_right₀ (by norm_num) (by exact_mod_cast h2)

end Verif.Float
