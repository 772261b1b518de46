import Verif.Random.Gauss
import Verif.Encode.Lemmas
import Mathlib.Analysis.SpecialFunctions.Log.Basic
import Mathlib.Analysis.Complex.ExponentialBounds
/-
Bounds on the numbers computed by the gaussian sampler.
-/
namespace Verif.Random.Gauss
open Verif.Float Verif.Encode

/-- What is assumed of `f64::ln`: a relative error of `2^-50` between 0 and 1 (libraries give `2^-52`). -/
def LnAccurate (ln : F64 → F64) : Prop :=
  ∀ s : ℚ, Rep s → 0 < s → s < 1 →
    ∃ l : ℚ, ln (.fin s) = .fin l ∧ |(l : ℝ) - Real.log s| ≤ |Real.log s| / 2 ^ 50

/-! ### Rounding errors -/

/-- The absolute error of one rounding. -/
def eta : ℚ := 1 / 2 ^ 1075

theorem eta_pos : 0 < eta := by unfold eta; exact div_pos one_pos (pow_pos (by norm_num) _)

theorem eta_le (n : ℕ) (h : n ≤ 1075) : eta ≤ 1 / 2 ^ n := by
  unfold eta
  exact div_le_div_of_nonneg_left (by norm_num) (pow_pos (by norm_num) _) (pow_le_pow_right₀ (by norm_num) h)

theorem rnd_err (q : ℚ) : |rnd q - q| ≤ |q| / 2 ^ 53 + eta := abs_rnd_sub_le q

theorem rnd_upper (q : ℚ) : |rnd q| ≤ |q| * (1 + 1 / 2 ^ 53) + eta := by
  have h := rnd_err q
  have h2 := abs_add_le (rnd q - q) q
  rw [sub_add_cancel] at h2
  linarith

theorem rnd_zero : rnd 0 = 0 := by
  have := rnd_int 0 (by norm_num)
  simpa using this

/-- A number that is not small times `2^-63` keeps its significand. -/
theorem Rep.scale {r : ℚ} (h : Rep r) (h1 : 1 ≤ |r|) : Rep (r * 2 ^ (-63 : ℤ)) := by
  obtain ⟨k, e, hk, he, rfl⟩ := h
  by_cases h2 : -1011 ≤ e
  · exact ⟨k, e + -63, hk, by omega, by rw [zpow_add₀ (by norm_num)]; ring⟩
  · exfalso
    have hp := two_zpow_pos e
    rw [abs_mul, abs_of_pos hp] at h1
    have h3 : (2 : ℚ) ^ e ≤ 2 ^ (-60 : ℤ) := zpow_le_zpow_right₀ (by norm_num) (by omega)
    have h4 : |(k : ℚ)| ≤ 2 ^ 53 := by exact_mod_cast hk
    have h5 : |(k : ℚ)| * 2 ^ e ≤ 2 ^ 53 * 2 ^ (-60 : ℤ) :=
      mul_le_mul h4 h3 hp.le (by norm_num)
    norm_num at h5
    linarith

theorem rep_zero : Rep 0 := ⟨0, 0, by norm_num, by norm_num, by norm_num⟩

theorem one_le_rnd_int {n : ℤ} (h0 : n ≠ 0) : 1 ≤ |rnd (n : ℚ)| := by
  have one : Rep (1 : ℚ) := by simpa using rep_int 1 (by norm_num)
  rcases lt_or_gt_of_ne h0 with h | h
  · rw [le_abs]; right
    have : rnd (n : ℚ) ≤ -1 := rnd_le_of_rep one.neg (by exact_mod_cast (by omega : n ≤ -1))
    linarith
  · rw [le_abs]; left
    exact le_rnd_of_rep one (by exact_mod_cast (by omega : 1 ≤ n))

/-- gaussian.rs:34-36: a number between -1 and 1, zero or at least `2^-63`. -/
theorem unit_eq (x : BitVec 64) :
    ∃ U : ℚ, unit x = .fin U ∧ Rep U ∧ |U| ≤ 1 ∧ (U = 0 ∨ 1 / 2 ^ 63 ≤ |U|) := by
  have hx : |(x.toInt : ℚ)| ≤ 2 ^ 63 := by
    have h1 := x.le_toInt
    have h2 := x.toInt_lt
    have : |x.toInt| ≤ 2 ^ 63 := by rw [abs_le]; norm_num at h1 h2 ⊢; omega
    exact_mod_cast this
  have hr : |rnd (x.toInt : ℚ)| ≤ 2 ^ 63 := by
    have hb : Rep ((2 : ℚ) ^ 63) := by
      have := rep_pow 63 (by norm_num)
      exact_mod_cast this
    rw [abs_le] at hx ⊢
    exact ⟨le_rnd_of_rep hb.neg hx.1, rnd_le_of_rep hb hx.2⟩
  have hm : |rnd (x.toInt : ℚ) * 2 ^ (-63 : ℤ)| ≤ 1 := by
    rw [abs_mul, abs_of_pos (two_zpow_pos _)]
    calc |rnd (x.toInt : ℚ)| * 2 ^ (-63 : ℤ) ≤ 2 ^ 63 * 2 ^ (-63 : ℤ) :=
          mul_le_mul_of_nonneg_right hr (two_zpow_pos _).le
      _ = 1 := by norm_num
  have he : unit x = (F64.fin (rnd (x.toInt : ℚ))).mul (.fin (2 ^ (-63 : ℤ))) := by
    unfold unit
    rw [ofRat_fin _ (hx.trans (pow_le_1022 63 (by norm_num))), show (-64 + 1 : ℤ) = -63 from rfl,
      powi2_eq _ (by norm_num) (by norm_num)]
  refine ⟨rnd (x.toInt : ℚ) * 2 ^ (-63 : ℤ), ?_, ?_, hm, ?_⟩
  · rw [he]
    show ofRat _ = _
    by_cases h0 : x.toInt = 0
    · rw [h0, Int.cast_zero, rnd_zero, zero_mul, ofRat_rep rep_zero (by rw [abs_zero]; exact pow_nonneg (by norm_num) _)]
    · exact ofRat_rep (Rep.scale (rep_rnd _) (one_le_rnd_int h0)) (hm.trans one_le_1022)
  · by_cases h0 : x.toInt = 0
    · rw [h0, Int.cast_zero, rnd_zero, zero_mul]; exact rep_zero
    · exact Rep.scale (rep_rnd _) (one_le_rnd_int h0)
  · by_cases h0 : x.toInt = 0
    · left; rw [h0, Int.cast_zero, rnd_zero, zero_mul]
    · right
      have h1 := one_le_rnd_int h0
      rw [abs_mul, abs_of_pos (two_zpow_pos _)]
      calc (1 : ℚ) / 2 ^ 63 = 1 * 2 ^ (-63 : ℤ) := by norm_num
        _ ≤ _ := mul_le_mul_of_nonneg_right h1 (two_zpow_pos _).le

/-- The square of a coordinate, rounded. -/
theorem sq_rnd (U : ℚ) (h : U = 0 ∨ 1 / 2 ^ 63 ≤ |U|) :
    U ^ 2 * (1 - 1 / 2 ^ 52) ≤ rnd (U * U) ∧ (U ≠ 0 → 1 / 2 ^ 126 ≤ rnd (U * U)) := by
  rcases h with rfl | h
  · rw [mul_zero, rnd_zero]; norm_num
  · have h1 : (1 : ℚ) / 2 ^ 126 ≤ U * U := by
      have : (1 / 2 ^ 63 : ℚ) * (1 / 2 ^ 63) ≤ |U| * |U| := mul_le_mul h h (by norm_num) (abs_nonneg _)
      rw [abs_mul_abs_self] at this
      refine le_trans (le_of_eq ?_) this
      norm_num
    have hr : Rep ((1 : ℚ) / 2 ^ 126) := by
      have := rep_pow (-126) (by norm_num)
      rw [zpow_neg] at this
      rw [one_div]; exact_mod_cast this
    refine ⟨?_, fun _ => le_rnd_of_rep hr h1⟩
    have h2 := rnd_err (U * U)
    have h3 : |U * U| = U * U := abs_mul_self U
    rw [h3] at h2
    have h4 := eta_le 200 (by norm_num)
    have h5 : (1 : ℚ) / 2 ^ 200 ≤ U * U / 2 ^ 53 := by
      rw [le_div_iff₀ (by norm_num)]
      refine le_trans ?_ h1
      norm_num
    have h6 := (abs_le.1 h2).1
    have h7 : U * U * (1 / 2 ^ 52) = U * U / 2 ^ 53 + U * U / 2 ^ 53 := by ring
    rw [sq, mul_sub, mul_one, h7]
    linarith

/-- gaussian.rs:38: the sum of the squares. -/
theorem radius_eq (x y : BitVec 64) :
    ∃ U V s : ℚ, unit x = .fin U ∧ unit y = .fin V ∧ radius (unit x) (unit y) = .fin s ∧ Rep s ∧
      |U| ≤ 1 ∧ |V| ≤ 1 ∧ U ^ 2 * (1 - 1 / 2 ^ 52) ≤ s ∧ V ^ 2 * (1 - 1 / 2 ^ 52) ≤ s ∧
      (0 < s → 1 / 2 ^ 126 ≤ s) := by
  obtain ⟨U, hU, -, hU1, hU2⟩ := unit_eq x
  obtain ⟨V, hV, -, hV1, hV2⟩ := unit_eq y
  obtain ⟨a1, a2⟩ := sq_rnd U hU2
  obtain ⟨b1, b2⟩ := sq_rnd V hV2
  have one : Rep (1 : ℚ) := by simpa using rep_int 1 (by norm_num)
  have sq1 : ∀ Z : ℚ, |Z| ≤ 1 → 0 ≤ rnd (Z * Z) ∧ rnd (Z * Z) ≤ 1 ∧ (F64.fin Z).mul (.fin Z) = .fin (rnd (Z * Z)) := by
    intro Z hZ
    have hz : Z * Z ≤ 1 := by
      rw [← abs_mul_abs_self]
      calc |Z| * |Z| ≤ 1 * 1 := mul_le_mul hZ hZ (abs_nonneg _) (by norm_num)
        _ = 1 := by norm_num
    refine ⟨rnd_nonneg (mul_self_nonneg Z), rnd_le_of_rep one hz, ?_⟩
    show ofRat _ = _
    rw [ofRat_fin]
    rw [abs_mul_self]; exact hz.trans one_le_1022
  obtain ⟨c1, c2, c3⟩ := sq1 U hU1
  obtain ⟨d1, d2, d3⟩ := sq1 V hV1
  refine ⟨U, V, rnd (rnd (U * U) + rnd (V * V)), hU, hV, ?_, rep_rnd _, hU1, hV1, ?_, ?_, ?_⟩
  · rw [hU, hV]; unfold radius; rw [c3, d3]
    show ofRat _ = _
    rw [ofRat_fin]
    rw [abs_of_nonneg (by linarith)]
    have := pow_le_1022 1 (by norm_num)
    rw [pow_one] at this
    exact le_trans (by linarith) this
  · exact a1.trans (le_rnd_of_rep (rep_rnd _) (by linarith))
  · exact b1.trans (le_rnd_of_rep (rep_rnd _) (by linarith))
  · intro hs
    by_cases h0 : U = 0
    · by_cases h1 : V = 0
      · rw [h0, h1, mul_zero, rnd_zero, add_zero, rnd_zero] at hs; exact absurd hs (lt_irrefl _)
      · exact (b2 h1).trans (le_rnd_of_rep (rep_rnd _) (by linarith))
    · exact (a2 h0).trans (le_rnd_of_rep (rep_rnd _) (by linarith))

/-! ### The factor -/

/-- gaussian.rs:40, the square root: with a coordinate, at most 13.2175. -/
theorem root_eq {ln : F64 → F64} (hln : LnAccurate ln) (s : ℚ) (hr : Rep s) (h0 : 1 / 2 ^ 126 ≤ s) (h1 : s < 1) :
    ∃ c : ℚ, (((F64.fin (-2)).mul (ln (.fin s))).div (.fin s)).sqrt = .fin c ∧ 0 ≤ c ∧ c ≤ 2 ^ 70 ∧
      ∀ U : ℚ, U ^ 2 * (1 - 1 / 2 ^ 52) ≤ s → |U| * c ≤ 132175 / 10000 := by
  have hs0 : 0 < s := lt_of_lt_of_le (by norm_num) h0
  obtain ⟨l, hl, hacc⟩ := hln s hr hs0 h1
  -- the logarithm
  have hlog0 : Real.log s < 0 := Real.log_neg (by exact_mod_cast hs0) (by exact_mod_cast h1)
  have hlog1 : -(126 * Real.log 2) ≤ Real.log s := by
    have h2 : ((1 / 2 ^ 126 : ℚ) : ℝ) ≤ (s : ℝ) := by exact_mod_cast h0
    have h3 : Real.log ((1 / 2 ^ 126 : ℚ) : ℝ) ≤ Real.log s := Real.log_le_log (by norm_num) h2
    refine le_trans (le_of_eq ?_) h3
    push_cast
    rw [one_div, Real.log_inv, Real.log_pow]
    norm_num
  have hl2 := Real.log_two_lt_d9
  rw [abs_of_neg hlog0] at hacc
  have hacc' := abs_le.1 hacc
  have lneg : (l : ℝ) ≤ 0 := by
    have : -Real.log s / 2 ^ 50 ≤ -Real.log s := div_le_self (by linarith) (by norm_num)
    linarith
  have lb : -(87337 / 1000) ≤ (l : ℝ) := by
    have h4 : -Real.log s / 2 ^ 50 ≤ 88 / 2 ^ 50 := by
      apply div_le_div_of_nonneg_right _ (by norm_num)
      linarith
    have h5 : (88 : ℝ) / 2 ^ 50 ≤ 1 / 10 ^ 10 := by norm_num
    linarith
  have lneg' : l ≤ 0 := by exact_mod_cast lneg
  have lb' : -(87337 / 1000) ≤ l := by
    have : ((-(87337 / 1000) : ℚ) : ℝ) ≤ (l : ℝ) := by push_cast; linarith
    exact_mod_cast this
  clear hlog0 hlog1 hl2 hacc hacc' lneg lb hln
  have hη := eta_le 100 (by norm_num)
  have hη0 := eta_pos
  -- the product by -2
  have e1 : (F64.fin (-2)).mul (.fin l) = .fin (rnd (-2 * l)) := by
    show ofRat _ = _
    rw [ofRat_fin]
    rw [abs_of_nonneg (by linarith)]
    exact le_trans (by norm_num; linarith) (pow_le_1022 10 (by norm_num))
  have a0 : 0 ≤ rnd (-2 * l) := rnd_nonneg (by linarith)
  have a1 : rnd (-2 * l) ≤ 1747 / 10 := by
    have h := rnd_upper (-2 * l)
    rw [abs_of_nonneg a0, abs_of_nonneg (by linarith : 0 ≤ -2 * l)] at h
    have : (1 : ℚ) / 2 ^ 53 ≤ 1 / 10 ^ 10 := by norm_num
    have : (-2 * l) * (1 + 1 / 2 ^ 53) ≤ (2 * (87337 / 1000)) * (1 + 1 / 10 ^ 10) :=
      mul_le_mul (by linarith) (by linarith) (by norm_num) (by norm_num)
    have h6 : (1 : ℚ) / 2 ^ 100 ≤ 1 / 10 ^ 10 := by norm_num
    linarith
  have a2 : rnd (-2 * l) ≤ 174675 / 1000 := by
    have h := rnd_upper (-2 * l)
    rw [abs_of_nonneg a0, abs_of_nonneg (by linarith : 0 ≤ -2 * l)] at h
    have : (1 : ℚ) / 2 ^ 53 ≤ 1 / 10 ^ 10 := by norm_num
    have : (-2 * l) * (1 + 1 / 2 ^ 53) ≤ (2 * (87337 / 1000)) * (1 + 1 / 10 ^ 10) :=
      mul_le_mul (by linarith) (by linarith) (by norm_num) (by norm_num)
    have h6 : (1 : ℚ) / 2 ^ 100 ≤ 1 / 10 ^ 10 := by norm_num
    linarith
  generalize rnd (-2 * l) = a at *
  -- the quotient
  have q0 : 0 ≤ a / s := div_nonneg a0 hs0.le
  have q1 : a / s ≤ 175 * 2 ^ 126 := by
    rw [div_le_iff₀ hs0]
    have : 175 * 2 ^ 126 * (1 / 2 ^ 126 : ℚ) ≤ 175 * 2 ^ 126 * s := mul_le_mul_of_nonneg_left h0 (by norm_num)
    norm_num at this ⊢
    linarith
  have e2 : (F64.fin a).div (.fin s) = .fin (rnd (a / s)) := by
    show (if s = 0 then _ else ofRat _) = _
    rw [if_neg hs0.ne', ofRat_fin]
    rw [abs_of_nonneg q0]
    refine q1.trans (le_trans ?_ (pow_le_1022 140 (by norm_num)))
    norm_num
  have b0 : 0 ≤ rnd (a / s) := rnd_nonneg q0
  have b1 : rnd (a / s) * s ≤ 17468 / 100 := by
    have h := rnd_upper (a / s)
    rw [abs_of_nonneg b0, abs_of_nonneg q0] at h
    have h3 := mul_le_mul_of_nonneg_right h hs0.le
    have h4 : (a / s * (1 + 1 / 2 ^ 53) + eta) * s = a * (1 + 1 / 2 ^ 53) + eta * s := by field_simp
    rw [h4] at h3
    have h5 : eta * s ≤ 1 / 2 ^ 100 * 1 := mul_le_mul hη h1.le hs0.le (by norm_num)
    have h6 : a * (1 + 1 / 2 ^ 53) ≤ 174675 / 1000 * (1 + 1 / 10 ^ 10) :=
      mul_le_mul a2 (by norm_num) (by norm_num) (by norm_num)
    have h7 : (1 : ℚ) / 2 ^ 100 ≤ 1 / 10 ^ 10 := by norm_num
    linarith
  generalize rnd (a / s) = b at *
  -- the square root
  obtain ⟨c, hc, c0, c1⟩ : ∃ c : ℚ, (F64.fin b).sqrt = .fin c ∧ 0 ≤ c ∧ c ^ 2 ≤ b * (1 + 1 / 2 ^ 51) := by
    show ∃ c, (if b < 0 then _ else if b = 0 then _ else _) = _ ∧ _
    rw [if_neg (not_lt.2 b0)]
    by_cases hb : b = 0
    · rw [if_pos hb]; exact ⟨0, rfl, le_refl _, by rw [hb]; norm_num⟩
    · rw [if_neg hb]
      have hbp : 0 < b := lt_of_le_of_ne b0 (Ne.symm hb)
      refine ⟨_, rfl, sqrtRnd_nonneg b, ?_⟩
      have h := (abs_le.1 (abs_sqrtRnd_sub_le b hbp)).2
      have hn : (0 : ℝ) ≤ (sqrtRnd b : ℝ) := by exact_mod_cast sqrtRnd_nonneg b
      have h2 : (sqrtRnd b : ℝ) ≤ √(b : ℝ) * (1 + 1 / 2 ^ 53) := by
        rw [mul_add, mul_one, mul_one_div]; linarith
      have h3 : (sqrtRnd b : ℝ) ^ 2 ≤ (√(b : ℝ) * (1 + 1 / 2 ^ 53)) ^ 2 := pow_le_pow_left₀ hn h2 2
      rw [mul_pow, Real.sq_sqrt (by exact_mod_cast b0)] at h3
      have h4 : (b : ℝ) * (1 + 1 / 2 ^ 53) ^ 2 ≤ (b : ℝ) * (1 + 1 / 2 ^ 51) :=
        mul_le_mul_of_nonneg_left (by norm_num) (by exact_mod_cast b0)
      have h5 : ((sqrtRnd b ^ 2 : ℚ) : ℝ) ≤ ((b * (1 + 1 / 2 ^ 51) : ℚ) : ℝ) := by push_cast; linarith
      exact_mod_cast h5
  have cs : c ^ 2 * s ≤ 17469 / 100 := by
    have h3 := mul_le_mul_of_nonneg_right c1 hs0.le
    have h4 : b * (1 + 1 / 2 ^ 51) * s = b * s * (1 + 1 / 2 ^ 51) := by ring
    rw [h4] at h3
    have h5 : b * s * (1 + 1 / 2 ^ 51) ≤ 17468 / 100 * (1 + 1 / 10 ^ 10) :=
      mul_le_mul b1 (by norm_num) (by norm_num) (by norm_num)
    linarith
  refine ⟨c, by rw [hl, e1, e2, hc], c0, ?_, ?_⟩
  · have : c ^ 2 ≤ (2 ^ 70) ^ 2 := by
      have h3 : c ^ 2 * (1 / 2 ^ 126) ≤ c ^ 2 * s := mul_le_mul_of_nonneg_left h0 (sq_nonneg c)
      have h4 : c ^ 2 * (1 / 2 ^ 126) ≤ 175 := by linarith
      have h5 : c ^ 2 ≤ 175 * 2 ^ 126 := by
        have := mul_le_mul_of_nonneg_right h4 (by norm_num : (0 : ℚ) ≤ 2 ^ 126)
        rw [mul_assoc] at this
        norm_num at this ⊢
        linarith
      refine h5.trans (by norm_num)
    exact (pow_le_pow_iff_left₀ c0 (by norm_num) (by norm_num)).1 this
  · intro U hU
    have h3 : (|U| * c) ^ 2 * (1 - 1 / 2 ^ 52) ≤ 17469 / 100 := by
      rw [mul_pow, sq_abs]
      have h4 := mul_le_mul_of_nonneg_left hU (sq_nonneg c)
      have h5 : c ^ 2 * (U ^ 2 * (1 - 1 / 2 ^ 52)) = U ^ 2 * c ^ 2 * (1 - 1 / 2 ^ 52) := by ring
      rw [h5] at h4
      linarith
    have h6 : (|U| * c) ^ 2 ≤ (132175 / 10000) ^ 2 := by
      have h7 : (17469 / 100 : ℚ) ≤ (132175 / 10000) ^ 2 * (1 - 1 / 2 ^ 52) := by norm_num
      have h8 := h3.trans h7
      exact le_of_mul_le_mul_right h8 (by norm_num)
    exact (pow_le_pow_iff_left₀ (mul_nonneg (abs_nonneg _) c0) (by norm_num) (by norm_num)).1 h6

/-- gaussian.rs:40-41 with mean 0: one of the two numbers. -/
theorem scaled_eq (σ c U : ℚ) (hσ0 : 0 ≤ σ) (hσ1 : σ ≤ 2 ^ 900) (c0 : 0 ≤ c) (c1 : c ≤ 2 ^ 70) (hU : |U| ≤ 1)
    (hc : |U| * c ≤ 132175 / 10000) :
    ∃ p : ℚ, ((F64.fin U).mul ((F64.fin σ).mul (.fin c))).add (.fin 0) = .fin p ∧ Rep p ∧
      |p| ≤ 13218 / 1000 * σ + 3 * eta := by
  have hη := eta_le 100 (by norm_num)
  have hη0 := eta_pos
  have m0 : 0 ≤ σ * c := mul_nonneg hσ0 c0
  have m1 : σ * c ≤ 2 ^ 970 := by
    calc σ * c ≤ 2 ^ 900 * 2 ^ 70 := mul_le_mul hσ1 c1 c0 (pow_nonneg (by norm_num) _)
      _ = 2 ^ 970 := by rw [← pow_add]
  have e1 : (F64.fin σ).mul (.fin c) = .fin (rnd (σ * c)) := by
    show ofRat _ = _
    rw [ofRat_fin]
    rw [abs_of_nonneg m0]
    exact m1.trans (pow_le_1022 970 (by norm_num))
  have n0 : 0 ≤ rnd (σ * c) := rnd_nonneg m0
  have n1 : rnd (σ * c) ≤ 2 ^ 970 := by
    apply rnd_le_of_rep _ m1
    have := rep_pow 970 (by norm_num)
    exact_mod_cast this
  have n2 := rnd_upper (σ * c)
  rw [abs_of_nonneg n0, abs_of_nonneg m0] at n2
  generalize rnd (σ * c) = t at *
  have u1 : |U * t| ≤ 2 ^ 970 := by
    rw [abs_mul, abs_of_nonneg n0]
    calc |U| * t ≤ 1 * t := mul_le_mul_of_nonneg_right hU n0
      _ ≤ 2 ^ 970 := by rw [one_mul]; exact n1
  have e2 : (F64.fin U).mul (.fin t) = .fin (rnd (U * t)) := by
    show ofRat _ = _
    rw [ofRat_fin _ (u1.trans (pow_le_1022 970 (by norm_num)))]
  have p1 : |rnd (U * t)| ≤ 2 ^ 970 := by
    have hb : Rep ((2 : ℚ) ^ 970) := by
      have := rep_pow 970 (by norm_num)
      exact_mod_cast this
    rw [abs_le] at u1 ⊢
    exact ⟨le_rnd_of_rep hb.neg u1.1, rnd_le_of_rep hb u1.2⟩
  refine ⟨rnd (U * t), ?_, rep_rnd _, ?_⟩
  · rw [e1, e2]
    show ofRat _ = _
    rw [add_zero, ofRat_rep (rep_rnd _) (p1.trans (pow_le_1022 970 (by norm_num)))]
  · have h := rnd_upper (U * t)
    rw [abs_mul, abs_of_nonneg n0] at h
    have h2 : |U| * t ≤ σ * (|U| * c) * (1 + 1 / 2 ^ 53) + eta := by
      calc |U| * t ≤ |U| * (σ * c * (1 + 1 / 2 ^ 53) + eta) := mul_le_mul_of_nonneg_left n2 (abs_nonneg _)
        _ = σ * (|U| * c) * (1 + 1 / 2 ^ 53) + |U| * eta := by ring
        _ ≤ σ * (|U| * c) * (1 + 1 / 2 ^ 53) + 1 * eta := by
            have := mul_le_mul_of_nonneg_right hU hη0.le
            linarith
        _ = _ := by ring
    have h3 : σ * (|U| * c) ≤ σ * (132175 / 10000) := mul_le_mul_of_nonneg_left hc hσ0
    have h4 : |U| * t * (1 + 1 / 2 ^ 53) ≤ (σ * (132175 / 10000) * (1 + 1 / 2 ^ 53) + eta) * (1 + 1 / 2 ^ 53) := by
      apply mul_le_mul_of_nonneg_right _ (by norm_num)
      have := mul_le_mul_of_nonneg_right h3 (by norm_num : (0 : ℚ) ≤ 1 + 1 / 2 ^ 53)
      linarith
    have h5 : (σ * (132175 / 10000) * (1 + 1 / 2 ^ 53) + eta) * (1 + 1 / 2 ^ 53) =
        σ * (132175 / 10000 * (1 + 1 / 2 ^ 53) ^ 2) + eta * (1 + 1 / 2 ^ 53) := by ring
    rw [h5] at h4
    have h6 : σ * (132175 / 10000 * (1 + 1 / 2 ^ 53) ^ 2) ≤ σ * (13218 / 1000) :=
      mul_le_mul_of_nonneg_left (by norm_num) hσ0
    have h7 : eta * (1 + 1 / 2 ^ 53) ≤ eta * 2 := mul_le_mul_of_nonneg_left (by norm_num) hη0.le
    linarith

/-! ### On the torus -/

/-- The conversion to the torus of a number of absolute value at most `13.218 σ`. -/
theorem fromTorus_bound (w : ℕ) (hw0 : 1 ≤ w) (hw : w ≤ 128) (σ p : ℚ) (hσ0 : 0 ≤ σ) (hp : Rep p)
    (h : |p| ≤ 13218 / 1000 * σ + 3 * eta) :
    |((fromTorus w (.fin p)).toInt : ℚ)| ≤ 13219 / 1000 * σ * 2 ^ w + 1 / 2 := by
  obtain ⟨r, v, -, -, hr, hv, hv2, he⟩ := fromTorus_spec w hw0 hw p hp
  have hη0 := eta_pos
  have hA : (0 : ℤ) < 2 ^ (w - 1) := by positivity
  have hval : |(fromTorus w (.fin p)).toInt| ≤ |v| := by
    rw [he]
    have hpw : (2 : ℤ) ^ w = 2 * 2 ^ (w - 1) := by rw [← pow_succ']; congr 1; omega
    have hb := abs_le.1 hv2
    have key : ∀ z : ℤ, -2 ^ (w - 1) ≤ z → z < 2 ^ (w - 1) → (BitVec.ofInt w z).toInt = z := by
      intro z z1 z2
      rw [BitVec.toInt_ofInt, Int.bmod_eq_of_le] <;> push_cast <;> rw [hpw] <;> omega
    split_ifs with hc
    · rw [key _ (by omega) (by omega), hc, abs_of_nonneg (by omega), abs_of_pos hA]; omega
    · rw [key _ hb.1 (by omega)]
  have hval' : |((fromTorus w (.fin p)).toInt : ℚ)| ≤ |(v : ℚ)| := by exact_mod_cast hval
  refine hval'.trans ?_
  have hv2' : |(v : ℚ)| ≤ 2 ^ (w - 1) := by exact_mod_cast hv2
  have hpw : (2 : ℚ) ^ w = 2 * 2 ^ (w - 1) := by rw [← pow_succ']; congr 1; omega
  have hP : (0 : ℚ) < 2 ^ w := by positivity
  by_cases hhalf : 1 / 2 ≤ |p|
  · -- larger than half of the torus
    have hη := eta_le 100 (by norm_num)
    have h100 : (1 : ℚ) / 2 ^ 100 ≤ 1 / 10 ^ 10 := by norm_num
    have : 1 / 2 ≤ 13219 / 1000 * σ := by
      by_contra hc
      push Not at hc
      linarith
    have := mul_le_mul_of_nonneg_right this hP.le
    linarith
  · push Not at hhalf
    have hr0 := hr hhalf
    rw [hr0, Int.cast_zero, sub_zero] at hv
    have h2 : |(v : ℚ)| ≤ |p| * 2 ^ w + 1 / 2 := by
      have h3 := abs_add_le ((v : ℚ) - p * 2 ^ w) (p * 2 ^ w)
      rw [sub_add_cancel, abs_mul, abs_of_pos hP, abs_sub_comm] at h3
      linarith
    by_cases hs : (1 / 2 ^ 900 : ℚ) ≤ σ
    · have h4 : |p| ≤ 13219 / 1000 * σ := by
        have h5 : 3 * eta ≤ 1 / 1000 * σ := by
          have h6 := eta_le 915 (by norm_num)
          have h7 : (1 : ℚ) / 2 ^ 915 = 1 / 2 ^ 15 * (1 / 2 ^ 900) := by
            rw [show (915 : ℕ) = 15 + 900 from rfl, pow_add]
            generalize (2 : ℚ) ^ 900 = A
            rw [one_div, mul_inv]; ring
          rw [h7] at h6
          generalize (1 : ℚ) / 2 ^ 900 = B at *
          have : (1 : ℚ) / 2 ^ 15 * B ≤ 1 / 2 ^ 15 * σ := mul_le_mul_of_nonneg_left hs (by norm_num)
          norm_num at this h6 ⊢
          linarith
        linarith
      have := mul_le_mul_of_nonneg_right h4 hP.le
      linarith
    · -- a tiny standard deviation: the conversion gives zero
      push Not at hs
      have hB : (1 : ℚ) / 2 ^ 900 ≤ 1 / 2 ^ 200 :=
        div_le_div_of_nonneg_left (by norm_num) (by norm_num) (pow_le_pow_right₀ (by norm_num) (by norm_num))
      have hη := eta_le 200 (by norm_num)
      have h4 : |p| ≤ 1 / 2 ^ 190 := by
        have : (1 : ℚ) / 2 ^ 190 = 1024 * (1 / 2 ^ 200) := by norm_num
        rw [this]
        generalize (1 : ℚ) / 2 ^ 900 = B at *
        generalize (1 : ℚ) / 2 ^ 200 = C at *
        linarith
      have h5 : |p| * 2 ^ w < 1 / 2 := by
        have h6 : (2 : ℚ) ^ w ≤ 2 ^ 128 := pow_le_pow_right₀ (by norm_num) hw
        calc |p| * 2 ^ w ≤ 1 / 2 ^ 190 * 2 ^ 128 := mul_le_mul h4 h6 hP.le (by norm_num)
          _ < 1 / 2 := by norm_num
      have h7 : |(v : ℚ)| < 1 := by linarith
      have h8 : |v| < 1 := by exact_mod_cast h7
      have h9 : v = 0 := by rw [Int.abs_lt_one_iff] at h8; exact h8
      rw [h9, Int.cast_zero, abs_zero]
      positivity

/-- The two torus elements of an accepted pair. -/
theorem value_bound {ln : F64 → F64} (hln : LnAccurate ln) (w : ℕ) (hw0 : 1 ≤ w) (hw : w ≤ 128) (σ : ℚ)
    (hσ0 : 0 ≤ σ) (hσ1 : σ ≤ 2 ^ 900) (x y : BitVec 64) (ha : (fn w ln (.fin σ) (.fin 0)).accept x y = true) :
    |(((fn w ln (.fin σ) (.fin 0)).value x y).1.toInt : ℚ)| ≤ 13219 / 1000 * σ * 2 ^ w + 1 / 2 ∧
    |(((fn w ln (.fin σ) (.fin 0)).value x y).2.toInt : ℚ)| ≤ 13219 / 1000 * σ * 2 ^ w + 1 / 2 := by
  obtain ⟨U, V, s, hU, hV, hs, hr, U1, V1, U2, V2, s1⟩ := radius_eq x y
  change accept x y = true at ha
  rw [accept, hs] at ha
  simp only [F64.lt, Bool.and_eq_true, decide_eq_true_eq] at ha
  obtain ⟨c, hc, c0, c1, c2⟩ := root_eq hln s hr (s1 ha.1) ha.2
  obtain ⟨p, hp, pr, pb⟩ := scaled_eq σ c U hσ0 hσ1 c0 c1 U1 (c2 U U2)
  obtain ⟨p', hp', pr', pb'⟩ := scaled_eq σ c V hσ0 hσ1 c0 c1 V1 (c2 V V2)
  have e : sample ln (.fin σ) (.fin 0) x y = (.fin p, .fin p') := by
    unfold sample factor
    dsimp only
    rw [hs, hc, hU, hV, hp, hp']
  refine ⟨?_, ?_⟩
  · show |((fromTorus w (sample ln (.fin σ) (.fin 0) x y).1).toInt : ℚ)| ≤ _
    rw [e]
    exact fromTorus_bound w hw0 hw σ p hσ0 pr pb
  · show |((fromTorus w (sample ln (.fin σ) (.fin 0) x y).2).toInt : ℚ)| ≤ _
    rw [e]
    exact fromTorus_bound w hw0 hw σ p' hσ0 pr' pb'

/-! ### Draws from a generator -/

/-- What a draw returns was computed from an accepted pair. -/
theorem gaussianLoop_mem {w : ℕ} (f : GaussianFn w) (P : BitVec w × BitVec w → Prop)
    (hP : ∀ x y, f.accept x y = true → P (f.value x y)) :
    ∀ fuel g r g', gaussianLoop f fuel g = some (r, g') → P r := by
  intro fuel
  induction fuel with
  | zero => intro g r g' h; cases h
  | succ n ih =>
    intro g r g' h
    rw [gaussianLoop] at h
    split at h
    · cases h
    · split at h
      · cases h
      · split at h
        · rename_i hacc
          simp only [Option.some.injEq, Prod.mk.injEq] at h
          rw [← h.1]; exact hP _ _ hacc
        · exact ih _ _ _ h

theorem gaussianPair_mem {w : ℕ} (f : GaussianFn w) (P : BitVec w × BitVec w → Prop)
    (hP : ∀ x y, f.accept x y = true → P (f.value x y)) {g g' : Src} {r : BitVec w × BitVec w}
    (h : gaussianPair f g = some (r, g')) : P r := gaussianLoop_mem f P hP _ _ _ _ h

theorem randomNoise_mem {w : ℕ} (f : GaussianFn w) (P : BitVec w → Prop)
    (hP : ∀ x y, f.accept x y = true → P (f.value x y).1) {g g' : Src} {e : BitVec w}
    (h : randomNoise f g = some (e, g')) : P e := by
  unfold randomNoise at h
  split at h
  · cases h
  · rename_i p g1 hp
    simp only [Option.some.injEq, Prod.mk.injEq] at h
    rw [← h.1]
    exact gaussianPair_mem f (fun r => P r.1) hP hp

theorem rep_mem {α : Type} (s : Samp α) (P : α → Prop) (hs : ∀ g a g', s g = some (a, g') → P a) :
    ∀ n g l g', rep n s g = some (l, g') → ∀ a ∈ l, P a := by
  intro n
  induction n with
  | zero => intro g l g' h a ha; simp only [rep, Option.some.injEq, Prod.mk.injEq] at h; rw [← h.1] at ha; cases ha
  | succ n ih =>
    intro g l g' h a ha
    simp only [rep] at h
    split at h
    · cases h
    · rename_i x g1 hx
      split at h
      · cases h
      · rename_i xs g2 hxs
        simp only [Option.some.injEq, Prod.mk.injEq] at h
        rw [← h.1] at ha
        rcases List.mem_cons.1 ha with rfl | ha
        · exact hs _ _ _ hx
        · exact ih _ _ _ hxs a ha

theorem randomNoiseTensor_mem {w : ℕ} (f : GaussianFn w) (P : BitVec w → Prop)
    (hP : ∀ x y, f.accept x y = true → P (f.value x y).1 ∧ P (f.value x y).2) {n : ℕ} {g g' : Src}
    {es : List (BitVec w)} (h : randomNoiseTensor f n g = some (es, g')) : ∀ e ∈ es, P e := by
  unfold randomNoiseTensor at h
  split at h
  · cases h
  · rename_i ps g1 hps
    simp only [Option.some.injEq, Prod.mk.injEq] at h
    intro e he
    rw [← h.1] at he
    have he := List.mem_of_mem_take he
    rw [List.mem_flatMap] at he
    obtain ⟨p, hp, hpe⟩ := he
    have := rep_mem (gaussianPair f) (fun r => P r.1 ∧ P r.2)
      (fun g a g' ha => gaussianPair_mem f (fun r => P r.1 ∧ P r.2) hP ha) _ _ _ _ hps p hp
    simp only [List.mem_cons, List.not_mem_nil, or_false] at hpe
    rcases hpe with rfl | rfl
    · exact this.1
    · exact this.2

end Verif.Random.Gauss
