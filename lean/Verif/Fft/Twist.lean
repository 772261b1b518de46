import Verif.Fft.Spec
import Mathlib.Analysis.Real.Pi.Bounds
/-
The twisting factors (mod.rs:63-74) are accurate.
-/
namespace Verif.Fft
open Verif.Float Finset

theorem xi_pow (n j : ℕ) : xi n ^ j = ⟨Real.cos (j * (Real.pi / (2 * n))), Real.sin (j * (Real.pi / (2 * n)))⟩ := by
  rw [xi, ← Complex.exp_nat_mul, ← mul_assoc, Complex.exp_mul_I]
  rw [show (j : ℂ) * ((Real.pi / (2 * n) : ℝ) : ℂ) = ((j * (Real.pi / (2 * n)) : ℝ) : ℂ) by push_cast; ring]
  rw [← Complex.ofReal_cos, ← Complex.ofReal_sin]
  generalize Real.cos (j * (Real.pi / (2 * n))) = a
  generalize Real.sin (j * (Real.pi / (2 * n))) = b
  apply Complex.ext <;> simp

theorem xi_n {n : ℕ} (hn : 0 < n) : xi n ^ n = Complex.I := by
  rw [xi_pow]
  have : (n : ℝ) ≠ 0 := by exact_mod_cast hn.ne'
  have e : (n : ℝ) * (Real.pi / (2 * n)) = Real.pi / 2 := by field_simp
  rw [e, Real.cos_pi_div_two, Real.sin_pi_div_two]
  rfl

theorem norm_xi (n : ℕ) : ‖xi n‖ = 1 := by rw [xi, Complex.norm_exp_ofReal_mul_I]

theorem pi_err : |((884279719003555 / 281474976710656 : ℚ) : ℝ) - Real.pi| ≤ 2 * u53 := by
  have h1 := Real.pi_gt_d20
  have h2 := Real.pi_lt_d20
  unfold u53
  rw [abs_le]
  push_cast
  constructor
  · norm_num at h1 h2 ⊢; linarith
  · norm_num at h1 h2 ⊢; linarith

/-- The errors of the angles. -/
theorem angle_err (n j pf un an π : ℝ) (ε η : ℝ) (hn : 1 ≤ n) (hj0 : 0 ≤ j) (hj : j ≤ n) (hε0 : 0 < ε)
    (hε : ε ≤ 1 / 1000000) (hη : 0 ≤ η) (hη1 : n * η ≤ ε / 100) (h3 : 0 ≤ π) (hπ : π ≤ 3.15) (hp : |pf - π| ≤ 2 * ε)
    (hu : |un - pf / (2 * n)| ≤ ε * |pf / (2 * n)| + η) (ha : |an - j * un| ≤ ε * |j * un| + η) :
    |an - j * (π / (2 * n))| ≤ 5 * ε ∧ an ≤ 2 := by
  have hη2 : η ≤ ε / 100 := by nlinarith
  have hpf : |pf| ≤ 3.16 := by
    have := abs_add_le (pf - π) π
    rw [sub_add_cancel, abs_of_nonneg h3] at this
    linarith
  have hjn : j / n ≤ 1 := by rw [div_le_one (by linarith)]; exact hj
  have hjn0 : 0 ≤ j / n := by positivity
  -- the difference of the angles
  have e1 : |j * un - j * (pf / (2 * n))| ≤ 1.6 * ε := by
    rw [← mul_sub, abs_mul, abs_of_nonneg hj0]
    have h1 : j * |un - pf / (2 * n)| ≤ j * (ε * |pf / (2 * n)| + η) := mul_le_mul_of_nonneg_left hu hj0
    have h2 : j * (ε * |pf / (2 * n)|) = ε * (j / n) * (|pf| / 2) := by
      rw [abs_div, abs_of_pos (by linarith : 0 < 2 * n)]
      field_simp
    have h3 : ε * (j / n) * (|pf| / 2) ≤ ε * 1 * (3.16 / 2) :=
      mul_le_mul (mul_le_mul_of_nonneg_left hjn hε0.le) (by linarith) (by positivity) (by linarith)
    have h4 : j * η ≤ n * η := mul_le_mul_of_nonneg_right hj hη
    nlinarith
  have e2 : |j * (pf / (2 * n)) - j * (π / (2 * n))| ≤ ε := by
    have : j * (pf / (2 * n)) - j * (π / (2 * n)) = (j / n) * ((pf - π) / 2) := by field_simp
    rw [this, abs_mul, abs_of_nonneg hjn0, abs_div, abs_two]
    have : (j / n) * (|pf - π| / 2) ≤ 1 * (2 * ε / 2) := mul_le_mul hjn (by linarith) (by positivity) (by norm_num)
    linarith
  have e3 : 0 ≤ j * (π / (2 * n)) ∧ j * (π / (2 * n)) ≤ 1.58 := by
    constructor
    · positivity
    · have : j * (π / (2 * n)) = (j / n) * (π / 2) := by field_simp
      rw [this]
      have : (j / n) * (π / 2) ≤ 1 * (3.15 / 2) := mul_le_mul hjn (by linarith) (by positivity) (by norm_num)
      linarith
  rw [abs_le] at e1 e2
  have e4 : |j * un| ≤ 1.59 := by rw [abs_le]; constructor <;> linarith
  have e5 : ε * |j * un| ≤ ε * 1.59 := mul_le_mul_of_nonneg_left e4 hε0.le
  rw [abs_le] at ha
  refine ⟨?_, ?_⟩
  · rw [abs_le]; constructor <;> linarith
  · linarith

theorem ofNat_exact {n : ℕ} (hn : n ≤ 2 ^ 41) : F64.ofNat n = .fin n ∧ Rep (n : ℚ) := by
  have h : Rep ((n : ℤ) : ℚ) := rep_int n (by
    rw [abs_of_nonneg (by positivity)]
    have : n ≤ 2 ^ 53 := hn.trans (by norm_num)
    exact_mod_cast this)
  have h' : Rep (n : ℚ) := by exact_mod_cast h
  refine ⟨?_, h'⟩
  unfold F64.ofNat
  apply ofRat_rep h'
  rw [abs_of_nonneg (by positivity)]
  have : (n : ℚ) ≤ 2 ^ 41 := by exact_mod_cast hn
  exact this.trans (pow_le_1022 41 (by norm_num))

set_option exponentiation.threshold 2000 in
theorem tiny_small : (2 : ℝ) ^ 800 * tiny ≤ u53 / 64 := by
  unfold tiny u53
  have e : (2 : ℝ) ^ 1000 = 2 ^ 800 * 2 ^ 200 := by rw [← pow_add]
  rw [e]
  have h : (0 : ℝ) < 2 ^ 800 := by positivity
  generalize (2 : ℝ) ^ 800 = A at *
  rw [mul_one_div, div_mul_cancel_left₀ h.ne']
  norm_num

theorem tiny_n {n : ℝ} (hn : n ≤ 2 ^ 800) : n * tiny ≤ u53 / 64 :=
  (mul_le_mul_of_nonneg_right hn tiny_pos.le).trans tiny_small

theorem twisties_accurate (sinCos : F64 → F64 × F64) (hs : SinCosAccurate sinCos) (n : ℕ) (hn0 : 0 < n)
    (hn : n ≤ 2 ^ 40) : TwistAccurate n (twisties sinCos n) := by
  refine ⟨by simp [twisties], fun j hj => ?_⟩
  obtain ⟨o1, r1⟩ := ofNat_exact (n := n) (hn.trans (by norm_num))
  obtain ⟨o2, r2⟩ := ofNat_exact (n := 2 * n) (by omega)
  obtain ⟨o3, r3⟩ := ofNat_exact (n := j) (by omega)
  have hN : (1 : ℝ) ≤ n := by exact_mod_cast hn0
  have hjn : (j : ℝ) ≤ n := by exact_mod_cast hj.le
  have hn40 : (n : ℝ) ≤ 2 ^ 40 := by exact_mod_cast hn
  let pf : ℚ := 884279719003555 / 281474976710656
  have hpf0 : (0 : ℝ) ≤ (pf : ℝ) := by exact_mod_cast (by norm_num [pf] : (0 : ℚ) ≤ pf)
  have hpf4 : (pf : ℝ) ≤ 4 := by exact_mod_cast (by norm_num [pf] : pf ≤ (4 : ℚ))
  have h2n : (F64.fin 2).mul (.fin n) = .fin (2 * n) := by
    rw [fmul_fin]
    have : Rep ((2 : ℚ) * n) := by exact_mod_cast r2
    apply ofRat_rep this
    rw [abs_of_nonneg (by positivity)]
    have : (2 * n : ℚ) ≤ 2 ^ 41 := by
      have : (2 * n : ℕ) ≤ 2 ^ 41 := by omega
      exact_mod_cast this
    exact this.trans (pow_le_1022 41 (by norm_num))
  have hbig : (4 : ℝ) ≤ 2 ^ 900 := le_trans (by norm_num : (4 : ℝ) ≤ 2 ^ 2) (pow_mono (by norm_num))
  have hdiv : (F64.fin pf).div (.fin (2 * n)) = .fin (rnd (pf / (2 * n))) := by
    have h0 : (2 * n : ℚ) ≠ 0 := by
      have : (n : ℚ) ≠ 0 := by exact_mod_cast hn0.ne'
      positivity
    show (if (2 * n : ℚ) = 0 then _ else ofRat (pf / (2 * n))) = _
    rw [if_neg h0]
    apply ofRat_real
    push_cast
    rw [abs_of_nonneg (by positivity)]
    refine le_trans ?_ hbig
    refine (div_le_self hpf0 (by linarith)).trans hpf4
  have hu := rnd_real (pf / (2 * n))
  set un := rnd (pf / (2 * n)) with hun
  have hη := tiny_n (n := n) (hn40.trans (pow_mono (by norm_num)))
  have hπ1 := Real.pi_pos
  have hπ2 := Real.pi_lt_d2
  have tp := tiny_pos
  push_cast at hu
  have hunn : (0 : ℚ) ≤ un := le_rnd_of_rep (by simpa using rep_int 0 (by norm_num)) (by positivity)
  have hul : |((j * un : ℚ) : ℝ)| ≤ 2 ^ 900 := by
    have h1 : |(un : ℝ)| ≤ 2 * 4 := by
      have : |((pf / (2 * n) : ℚ) : ℝ)| ≤ 4 := by
        push_cast
        rw [abs_of_nonneg (by positivity)]
        exact (div_le_self hpf0 (by linarith)).trans hpf4
      exact rnd_abs this (by norm_num)
    push_cast
    rw [abs_mul, abs_of_nonneg (by positivity : (0 : ℝ) ≤ j)]
    calc (j : ℝ) * |(un : ℝ)| ≤ 2 ^ 40 * (2 * 4) :=
          mul_le_mul (hjn.trans hn40) h1 (abs_nonneg _) (by positivity)
      _ = 2 ^ 43 := by norm_num
      _ ≤ 2 ^ 900 := pow_mono (by norm_num)
  have ha := rnd_real (j * un)
  set an := rnd (j * un) with han
  push_cast at ha
  have hann : (0 : ℚ) ≤ an := le_rnd_of_rep (by simpa using rep_int 0 (by norm_num)) (by positivity)
  obtain ⟨d1, d2⟩ := angle_err n j pf un an Real.pi u53 (tiny / 64) hN (by positivity) hjn u53_pos u53_le
    (by positivity) (by have := u53_pos; linarith) hπ1.le hπ2.le pi_err hu ha
  obtain ⟨s, c, e, e1, e2⟩ := hs an hann (by exact_mod_cast d2)
  have hel : at' (twisties sinCos n) j = ⟨.fin c, .fin s⟩ := by
    unfold at' twisties
    dsimp only
    rw [List.getD_eq_getElem?_getD, List.getElem?_map, List.getElem?_range hj]
    simp only [Option.map_some, Option.getD_some]
    rw [o1, h2n, o3, show piF = .fin pf from rfl, hdiv, fmul_fin, ofRat_real hul, ← han, e]
  unfold vals
  rw [hel]
  refine ⟨⟨trivial, trivial⟩, ?_⟩
  rw [val_fin, xi_pow]
  have f1 : |Real.sin (an : ℝ) - Real.sin (j * (Real.pi / (2 * n)))| ≤ 5 * u53 :=
    (Real.abs_sin_sub_sin_le _ _).trans d1
  have f2 : |Real.cos (an : ℝ) - Real.cos (j * (Real.pi / (2 * n)))| ≤ 5 * u53 :=
    (Real.abs_cos_sub_cos_le _ _).trans d1
  rw [gam_eq]
  refine (norm_le_parts _ (7 * u53) (7 * u53) ?_ ?_).trans (by have := u53_pos; linarith)
  · have := abs_add_le ((c : ℝ) - Real.cos an) (Real.cos (an : ℝ) - Real.cos (j * (Real.pi / (2 * n))))
    rw [sub_add_sub_cancel] at this
    exact this.trans (by linarith)
  · have := abs_add_le ((s : ℝ) - Real.sin an) (Real.sin (an : ℝ) - Real.sin (j * (Real.pi / (2 * n))))
    rw [sub_add_sub_cancel] at this
    exact this.trans (by linarith)

end Verif.Fft
