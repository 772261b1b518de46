import Verif.Cuda.NsmRoots
/-
Lemmas on the Fourier transform of the GPU: the table holds the twiddle factors, up to rounding.
-/
namespace Verif.Cuda.Nsm
open Finset

/-- Square roots in the first quadrant of close numbers are close. -/
theorem sqrt_close (T W P Z : ℂ) (δ e : ℝ) (hW : ‖W‖ = 1) (hWr : 0 ≤ W.re) (hWi : 0 ≤ W.im) (hTr : 0 ≤ T.re)
    (hTi : 0 ≤ T.im) (hT : ‖T ^ 2 - P‖ ≤ δ) (hP : ‖P - Z‖ ≤ e) (hZ : W ^ 2 = Z) (hs : δ + e ≤ 1 / 100) :
    ‖T - W‖ ≤ (δ + e) * (100 / 199) := by
  have h1 : ‖T - W‖ * ‖T + W‖ ≤ δ + e := by
    rw [← norm_mul, show (T - W) * (T + W) = (T ^ 2 - P) + (P - Z) by rw [← hZ]; ring]
    exact (norm_add_le _ _).trans (add_le_add hT hP)
  have h2 : 1 ≤ ‖T + W‖ := by
    have hsq : 1 ^ 2 ≤ ‖T + W‖ ^ 2 := by
      rw [← Complex.normSq_eq_norm_sq, Complex.normSq_apply]
      have hw : ‖W‖ ^ 2 = 1 := by rw [hW]; norm_num
      rw [← Complex.normSq_eq_norm_sq, Complex.normSq_apply] at hw
      simp only [Complex.add_re, Complex.add_im]
      have := mul_nonneg hTr hWr
      have := mul_nonneg hTi hWi
      nlinarith [mul_self_nonneg T.re, mul_self_nonneg T.im]
    exact le_of_sq_le_sq hsq (norm_nonneg _) |> fun h => by simpa using h
  have h3 : ‖T - W‖ ≤ 1 / 100 := by
    have := mul_le_mul_of_nonneg_left h2 (norm_nonneg (T - W))
    linarith
  have h4 : 199 / 100 ≤ ‖T + W‖ := by
    have : ‖(2 : ℂ) * W‖ ≤ ‖T + W‖ + ‖T - W‖ := by
      rw [show (2 : ℂ) * W = (T + W) - (T - W) by ring]
      exact norm_sub_le _ _
    rw [norm_mul, hW] at this
    norm_num at this
    linarith
  have h5 : ‖T - W‖ * (199 / 100) ≤ δ + e := (mul_le_mul_of_nonneg_left h4 (norm_nonneg _)).trans h1
  linarith

/-- A pair of integers over `10^33`. -/
noncomputable def dec (a : Int × Int) : ℂ := ⟨(a.1 : ℝ) / 10 ^ 33, (a.2 : ℝ) / 10 ^ 33⟩

theorem norm_parts_le (z : ℂ) (x : ℝ) (hr : |z.re| ≤ x) (hi : |z.im| ≤ x) : ‖z‖ ≤ 3 / 2 * x := by
  have hx : 0 ≤ x := (abs_nonneg _).trans hr
  apply le_of_sq_le_sq _ (by linarith)
  rw [← Complex.normSq_eq_norm_sq, Complex.normSq_apply]
  have h1 := mul_self_le_mul_self (abs_nonneg _) hr
  have h2 := mul_self_le_mul_self (abs_nonneg _) hi
  rw [abs_mul_abs_self] at h1 h2
  nlinarith

theorem goodPair_spec {p a b : Int × Int} (h : goodPair p a b = true) :
    0 ≤ (dec a).re ∧ 0 ≤ (dec a).im ∧ dec b = Complex.I * dec a ∧ ‖dec a ^ 2 - dec p‖ ≤ 63 / 200 / 10 ^ 15 ∧
      |(dec a).re| ≤ 1 ∧ |(dec a).im| ≤ 1 := by
  simp only [goodPair, decide_eq_true_eq] at h
  obtain ⟨h1, h2, h3, h4, h7, h8, h5, h6⟩ := h
  have p33 : (0 : ℝ) < 10 ^ 33 := by positivity
  have e1 : (0 : ℝ) ≤ (a.1 : ℝ) := by exact_mod_cast h1
  have e2 : (0 : ℝ) ≤ (a.2 : ℝ) := by exact_mod_cast h2
  have e7 : (a.1 : ℝ) ≤ 10 ^ 33 := by exact_mod_cast h7
  have e8 : (a.2 : ℝ) ≤ 10 ^ 33 := by exact_mod_cast h8
  refine ⟨div_nonneg e1 p33.le, div_nonneg e2 p33.le, ?_, ?_, ?_, ?_⟩
  · apply Complex.ext
    · simp [dec, h3, neg_div]
    · simp [dec, h4]
  · have e5 : |(a.1 : ℝ) * a.1 - a.2 * a.2 - p.1 * 10 ^ 33| ≤ 210000000000000000 * 10 ^ 33 := by exact_mod_cast h5
    have e6 : |2 * ((a.1 : ℝ) * a.2) - p.2 * 10 ^ 33| ≤ 210000000000000000 * 10 ^ 33 := by exact_mod_cast h6
    refine (norm_parts_le _ (21 / 100 / 10 ^ 15) ?_ ?_).trans (by norm_num)
    · have : (dec a ^ 2 - dec p).re = ((a.1 : ℝ) * a.1 - a.2 * a.2 - p.1 * 10 ^ 33) / (10 ^ 33 * 10 ^ 33) := by
        rw [sq, Complex.sub_re, Complex.mul_re]
        simp only [dec]
        field_simp
      rw [this, abs_div, abs_of_pos (by positivity : (0 : ℝ) < 10 ^ 33 * 10 ^ 33), div_le_iff₀ (by positivity)]
      refine e5.trans (by norm_num)
    · have : (dec a ^ 2 - dec p).im = (2 * ((a.1 : ℝ) * a.2) - p.2 * 10 ^ 33) / (10 ^ 33 * 10 ^ 33) := by
        rw [sq, Complex.sub_im, Complex.mul_im]
        simp only [dec]
        field_simp
        ring
      rw [this, abs_div, abs_of_pos (by positivity : (0 : ℝ) < 10 ^ 33 * 10 ^ 33), div_le_iff₀ (by positivity)]
      refine e6.trans (by norm_num)
  · show |(a.1 : ℝ) / 10 ^ 33| ≤ 1
    rw [abs_of_nonneg (div_nonneg e1 p33.le)]; exact (div_le_one p33).2 e7
  · show |(a.2 : ℝ) / 10 ^ 33| ≤ 1
    rw [abs_of_nonneg (div_nonneg e2 p33.le)]; exact (div_le_one p33).2 e8

theorem litVal_dec (h : Nat) : litVal h = dec (negtwiddles.getD h (0, 0)) := rfl

theorem table_pair (h : Nat) (h0 : 0 < h) (h1 : h < 2048) :
    goodPair (negtwiddles.getD h (0, 0)) (negtwiddles.getD (2 * h) (0, 0)) (negtwiddles.getD (2 * h + 1) (0, 0)) = true := by
  have hl := table_first.1
  have := goodPairs_get _ _ table_good (h - 1) (by rw [List.length_drop, hl]; omega)
  simp only [List.getD_eq_getElem?_getD, List.getElem?_drop] at this ⊢
  rw [show 1 + (h - 1) = h by omega, show 2 + 2 * (h - 1) = 2 * h by omega,
    show 2 + (2 * (h - 1) + 1) = 2 * h + 1 by omega] at this
  exact this

theorem rootW_quadrant (h : Nat) (h1 : h = 1 ∨ h % 2 = 0) (h0 : 0 < h) : 0 ≤ (rootW h).re ∧ 0 ≤ (rootW h).im := by
  have hp := Real.pi_pos
  have ha : 0 ≤ ang h ∧ ang h ≤ Real.pi / 2 := by
    rcases h1 with rfl | h1
    · rw [ang_one]; constructor <;> linarith
    · obtain ⟨q, rfl⟩ : ∃ q, h = 2 * q := ⟨h / 2, by omega⟩
      have := ang_range q
      rw [ang_even (by omega)]
      constructor <;> linarith [this.1, this.2]
  rw [rootW, Complex.exp_ofReal_mul_I_re, Complex.exp_ofReal_mul_I_im]
  exact ⟨Real.cos_nonneg_of_neg_pi_div_two_le_of_le (by linarith) ha.2,
    Real.sin_nonneg_of_nonneg_of_le_pi ha.1 (by linarith)⟩

/-- The literals are the exact twiddle factors, up to `4 / 10^16`. -/
theorem table_close (h : Nat) (h0 : 0 < h) (h1 : h < 4096) :
    ‖litVal h - rootW h‖ ≤ 4 / 10 ^ 16 ∧ |(litVal h).re| ≤ 1 ∧ |(litVal h).im| ≤ 1 := by
  induction h using Nat.strong_induction_on with
  | _ h ih =>
    obtain ⟨q, hq | hq⟩ : ∃ q, h = 2 * q ∨ h = 2 * q + 1 := ⟨h / 2, by omega⟩
    · subst hq
      obtain ⟨g1, g2, g3, g4, g5, g6⟩ := goodPair_spec (table_pair q (by omega) (by omega))
      obtain ⟨w1, w2⟩ := rootW_quadrant (2 * q) (Or.inr (by omega)) (by omega)
      have := sqrt_close _ _ _ _ _ _ (rootW_norm _) w1 w2 g1 g2 g4 (ih q (by omega) (by omega) (by omega)).1
        (rootW_even (by omega)) (by norm_num)
      exact ⟨this.trans (by norm_num), g5, g6⟩
    · subst hq
      rcases Nat.eq_zero_or_pos q with rfl | hq
      · obtain ⟨g1, g2, g3, g4, g5, g6⟩ := goodPair_spec table_first.2
        obtain ⟨w1, w2⟩ := rootW_quadrant 1 (Or.inl rfl) (by omega)
        have hI : dec (0, 10 ^ 33) = Complex.I := by
          apply Complex.ext <;> norm_num [dec]
        have := sqrt_close _ _ _ _ _ 0 (rootW_norm _) w1 w2 g1 g2 g4 (by rw [hI, sub_self, norm_zero]) rootW_one (by norm_num)
        exact ⟨this.trans (by norm_num), g5, g6⟩
      · obtain ⟨g1, g2, g3, g4, g5, g6⟩ := goodPair_spec (table_pair q hq (by omega))
        obtain ⟨w1, w2⟩ := rootW_quadrant (2 * q) (Or.inr (by omega)) (by omega)
        have := sqrt_close _ _ _ _ _ _ (rootW_norm _) w1 w2 g1 g2 g4 (ih q (by omega) (by omega) (by omega)).1
          (rootW_even (by omega)) (by norm_num)
        rw [litVal_dec, g3, rootW_odd hq, ← mul_sub, norm_mul, Complex.norm_I, one_mul]
        refine ⟨this.trans (by norm_num), ?_, ?_⟩
        · simpa using g6
        · simpa using g5

end Verif.Cuda.Nsm
