import Verif.Fft.Spec
import Mathlib.RingTheory.RootsOfUnity.Complex
/-
The assumptions on the external code can be met: the exact transform and the exact sine and cosine, rounded to the
nearest float, are accurate.
-/
namespace Verif.Fft
open Verif.Float Finset

/-- Underflow bound of one rounding. -/
@[irreducible] noncomputable def eta : ℝ := 1 / 2 ^ 1075

theorem eta_pos : 0 < eta := by unfold eta; positivity

set_option exponentiation.threshold 3000 in
theorem eta_tiny : (2 : ℝ) ^ 60 * eta ≤ tiny := by
  unfold eta tiny
  rw [mul_one_div, div_le_div_iff₀ (by positivity) (by positivity), one_mul, ← pow_add]
  exact pow_mono (by norm_num)

/-- A rational number at distance less than `eta`. -/
noncomputable def ratNear (x : ℝ) : ℚ := Classical.choose (exists_rat_btwn (show x - eta < x + eta by linarith [eta_pos]))

theorem ratNear_err (x : ℝ) : |(ratNear x : ℝ) - x| ≤ eta := by
  have h := Classical.choose_spec (exists_rat_btwn (show x - eta < x + eta by linarith [eta_pos]))
  rw [abs_le]
  exact ⟨by have := h.1; unfold ratNear; linarith, by have := h.2; unfold ratNear; linarith⟩

/-- A real number rounded to binary64 (through a rational number). -/
noncomputable def round64 (x : ℝ) : F64 := ofRat (ratNear x)

theorem rnd_real' (q : ℚ) : |((rnd q : ℚ) : ℝ) - q| ≤ u53 * |(q : ℝ)| + eta := by
  have h := abs_rnd_sub_le q
  have h2 : ((|rnd q - q| : ℚ) : ℝ) ≤ ((|q| / 2 ^ 53 + 1 / 2 ^ 1075 : ℚ) : ℝ) := Rat.cast_le.mpr h
  have h' : |((rnd q : ℚ) : ℝ) - (q : ℝ)| ≤ |(q : ℝ)| / 2 ^ 53 + 1 / 2 ^ 1075 := by
    simpa only [Rat.cast_abs, Rat.cast_sub, Rat.cast_add, Rat.cast_div, Rat.cast_pow, Rat.cast_one,
      Rat.cast_ofNat] using h2
  unfold u53 eta
  generalize (1 : ℝ) / 2 ^ 1075 = A at *
  have e : |(q : ℝ)| / 2 ^ 53 = 1 / 2 ^ 53 * |(q : ℝ)| := by ring
  linarith

theorem eta_le_one : eta ≤ 1 := by
  unfold eta
  rw [div_le_one (by positivity)]
  exact one_le_pow₀ (by norm_num)

set_option exponentiation.threshold 3000 in
theorem round64_err (x : ℝ) (hx : |x| ≤ 2 ^ 800) :
    ∃ q : ℚ, round64 x = .fin q ∧ Rep q ∧ |(q : ℝ) - x| ≤ u53 * |x| + 3 * eta := by
  have h1 := ratNear_err x
  have h2 : |(ratNear x : ℝ)| ≤ |x| + eta := by
    have := abs_add_le ((ratNear x : ℝ) - x) x
    rw [sub_add_cancel] at this
    linarith
  have h3 : |(ratNear x : ℝ)| ≤ 2 ^ 900 := by
    have e1 : (2 : ℝ) ^ 800 + 2 ^ 800 = 2 ^ 801 := pow_double 800
    have e2 : (2 : ℝ) ^ 801 ≤ 2 ^ 900 := pow_mono (by norm_num)
    have e3 : (1 : ℝ) ≤ 2 ^ 800 := one_le_pow₀ (by norm_num)
    have := eta_le_one
    generalize (2 : ℝ) ^ 800 = A at *
    generalize (2 : ℝ) ^ 801 = B at *
    generalize (2 : ℝ) ^ 900 = C at *
    linarith
  refine ⟨rnd (ratNear x), ofRat_real h3, rep_rnd _, ?_⟩
  clear h3 hx
  have h4 := rnd_real' (ratNear x)
  have h5 := abs_add_le (((rnd (ratNear x) : ℚ) : ℝ) - ratNear x) ((ratNear x : ℝ) - x)
  rw [sub_add_sub_cancel] at h5
  have hu := u53_le
  have hu0 := u53_pos
  have h6 : u53 * |(ratNear x : ℝ)| ≤ u53 * (|x| + eta) := mul_le_mul_of_nonneg_left h2 hu0.le
  have h7 : u53 * eta ≤ 1 * eta := mul_le_mul_of_nonneg_right (by linarith) eta_pos.le
  have e : u53 * (|x| + eta) = u53 * |x| + u53 * eta := by ring
  linarith

/-- A complex number rounded to a pair of floats. -/
noncomputable def roundC (z : ℂ) : C64 := ⟨round64 z.re, round64 z.im⟩

theorem roundC_err (z : ℂ) (hz : ‖z‖ ≤ 2 ^ 800) :
    (roundC z).Finite ∧ ‖(roundC z).val - z‖ ≤ 2 * u53 * ‖z‖ + 6 * eta := by
  obtain ⟨r1, r2⟩ := parts_le z _ hz
  obtain ⟨p, hp, rp, ep⟩ := round64_err z.re r1
  obtain ⟨q, hq, rq, eq⟩ := round64_err z.im r2
  clear r1 r2 hz
  have hfin : roundC z = ⟨.fin p, .fin q⟩ := by rw [roundC, hp, hq]
  rw [hfin]
  refine ⟨⟨trivial, trivial⟩, ?_⟩
  rw [val_fin]
  obtain ⟨s1, s2⟩ := parts_le z _ le_rfl
  refine (norm_le_parts _ (u53 * |z.re| + 3 * eta) (u53 * |z.im| + 3 * eta) ?_ ?_).trans ?_
  · simpa using ep
  · simpa using eq
  · have h1 := mul_le_mul_of_nonneg_left s1 u53_pos.le
    have h2 := mul_le_mul_of_nonneg_left s2 u53_pos.le
    linarith

/-- The `n`-th roots of unity in natural order. -/
noncomputable def stdRoots (n : ℕ) (k : ℕ) : ℂ := Complex.exp (2 * Real.pi * Complex.I / n) ^ k

theorem stdRoots_roots {n : ℕ} (hn : 0 < n) : Roots n (stdRoots n) := by
  have h := Complex.isPrimitiveRoot_exp n hn.ne'
  refine ⟨fun k _ => ?_, fun k k' hk hk' e => h.pow_inj hk hk' e⟩
  rw [stdRoots, ← pow_mul, mul_comm k n, pow_mul, h.pow_eq_one, one_pow]

/-- The exact transform in the order `ρ`, rounded to nearest. -/
noncomputable def idealPlanOf (n : ℕ) (ρ : ℕ → ℂ) : Plan where
  fwd zs := (List.range n).map fun k => roundC (dft n ρ (vals zs) k)
  inv zs := (List.range n).map fun j => roundC (idft n ρ (vals zs) j)

/-- The exact transform, rounded to nearest. -/
noncomputable def idealPlan (n : ℕ) : Plan := idealPlanOf n (stdRoots n)

theorem at_range {n k : ℕ} (f : ℕ → C64) (hk : k < n) : at' ((List.range n).map f) k = f k := by
  simp [at', List.getD_eq_getElem?_getD, hk]

theorem sum_bound {n : ℕ} (hn : n ≤ 2 ^ 40) (zs : List C64) (hl : zs.length = n) (hb : Bounded zs) :
    ∑ k ∈ range n, ‖vals zs k‖ ≤ 2 ^ 800 := by
  have h1 : ∀ k ∈ range n, ‖vals zs k‖ ≤ 2 ^ 200 := by
    intro k hk
    have hk' : k < zs.length := by rw [hl]; exact mem_range.1 hk
    have e : at' zs k = zs[k] := by simp [at', List.getD_eq_getElem?_getD, hk']
    rw [vals, e]
    exact (hb _ (List.getElem_mem hk')).2
  refine (sum_le_card_nsmul _ _ _ h1).trans ?_
  rw [card_range, nsmul_eq_mul]
  have h2 : (n : ℝ) ≤ 2 ^ 40 := by exact_mod_cast hn
  calc (n : ℝ) * 2 ^ 200 ≤ 2 ^ 40 * 2 ^ 200 := mul_le_mul_of_nonneg_right h2 (pow_nonneg (by norm_num) _)
    _ = 2 ^ 240 := by rw [← pow_add]
    _ ≤ 2 ^ 800 := pow_mono (by norm_num)

/-- There are plans of every size and order with the accuracy of one rounding. -/
theorem idealPlanOf_accurate (n : ℕ) (hn : n ≤ 2 ^ 40) (ρ : ℕ → ℂ) (hρ : Roots n ρ) :
    (∀ zs : List C64, zs.length = n → Bounded zs →
      ((idealPlanOf n ρ).fwd zs).length = n ∧ (∀ z ∈ (idealPlanOf n ρ).fwd zs, z.Finite) ∧
      l2 n (fun k => vals ((idealPlanOf n ρ).fwd zs) k - dft n ρ (vals zs) k) ≤
        2 * u53 * (Real.sqrt n * l2 n (vals zs)) + tiny) ∧
    (∀ zs : List C64, zs.length = n → Bounded zs →
      ((idealPlanOf n ρ).inv zs).length = n ∧ (∀ z ∈ (idealPlanOf n ρ).inv zs, z.Finite) ∧
      ∀ j, j < n → ‖vals ((idealPlanOf n ρ).inv zs) j - idft n ρ (vals zs) j‖ ≤
        2 * u53 * ∑ k ∈ range n, ‖vals zs k‖ + tiny) := by
  have h40 : (n : ℝ) ≤ 2 ^ 40 := by exact_mod_cast hn
  have hη := eta_tiny
  have hη0 := eta_pos
  refine ⟨fun zs hl hb => ?_, fun zs hl hb => ?_⟩
  · have hd : ∀ k, k < n → ‖dft n ρ (vals zs) k‖ ≤ 2 ^ 800 := by
      intro k hk
      refine le_trans ?_ (sum_bound hn zs hl hb)
      refine (norm_sum_le _ _).trans (sum_le_sum fun j _ => ?_)
      rw [norm_mul, norm_pow, hρ.norm hk, one_pow, mul_one]
    refine ⟨by simp [idealPlanOf], ?_, ?_⟩
    · intro z hz
      obtain ⟨k, hk, rfl⟩ := List.mem_map.1 hz
      exact (roundC_err _ (hd k (List.mem_range.1 hk))).1
    · have e1 : ∀ k, k < n → ‖vals ((idealPlanOf n ρ).fwd zs) k - dft n ρ (vals zs) k‖ ≤
          ‖((2 * u53 * ‖dft n ρ (vals zs) k‖ + 6 * eta : ℝ) : ℂ)‖ := by
        intro k hk
        rw [vals, idealPlanOf, at_range _ hk, Complex.norm_real, Real.norm_eq_abs]
        exact (roundC_err _ (hd k hk)).2.trans (le_abs_self _)
      refine (l2_mono e1).trans ?_
      clear hd e1
      have e2 : (fun k => ((2 * u53 * ‖dft n ρ (vals zs) k‖ + 6 * eta : ℝ) : ℂ)) =
          fun k => ((2 * u53 * ‖dft n ρ (vals zs) k‖ : ℝ) : ℂ) + ((6 * eta : ℝ) : ℂ) := by
        funext k; push_cast; ring
      rw [e2]
      refine (l2_add_le n (fun k => ((2 * u53 * ‖dft n ρ (vals zs) k‖ : ℝ) : ℂ))
        (fun _ => ((6 * eta : ℝ) : ℂ))).trans ?_
      have e3 : l2 n (fun k => ((2 * u53 * ‖dft n ρ (vals zs) k‖ : ℝ) : ℂ)) =
          2 * u53 * l2 n (dft n ρ (vals zs)) := by
        unfold l2
        have hu : (0 : ℝ) ≤ 2 * u53 := by linarith [u53_pos]
        conv_rhs => rw [← Real.sqrt_sq hu, ← Real.sqrt_mul (by positivity), mul_sum]
        congr 1
        apply sum_congr rfl
        intro k _
        rw [Complex.norm_real, Real.norm_eq_abs, sq_abs, mul_pow]
      have e4 : l2 n (fun _ => ((6 * eta : ℝ) : ℂ)) ≤ tiny := by
        refine (l2_le_of_le (B := 6 * eta) (by linarith) fun k _ => ?_).trans ?_
        · rw [Complex.norm_real, Real.norm_eq_abs, abs_of_nonneg (by linarith)]
        · have h1 : Real.sqrt n ≤ 2 ^ 40 := by
            rw [Real.sqrt_le_left (by positivity)]
            refine h40.trans ?_
            norm_num
          have h2 : Real.sqrt n * (6 * eta) ≤ 2 ^ 40 * (6 * eta) := mul_le_mul_of_nonneg_right h1 (by linarith)
          have h3 : (2 : ℝ) ^ 40 * (6 * eta) ≤ 2 ^ 60 * eta := by
            have : (2 : ℝ) ^ 40 * 6 * eta ≤ 2 ^ 60 * eta := mul_le_mul_of_nonneg_right (by norm_num) hη0.le
            linarith
          linarith
      rw [e3, hρ.parseval]
      linarith
  · have hd : ∀ j, ‖idft n ρ (vals zs) j‖ ≤ 2 ^ 800 := fun j =>
      (hρ.idft_le _ j).trans (sum_bound hn zs hl hb)
    refine ⟨by simp [idealPlanOf], ?_, ?_⟩
    · intro z hz
      obtain ⟨k, hk, rfl⟩ := List.mem_map.1 hz
      exact (roundC_err _ (hd k)).1
    · intro j hj
      rw [vals, idealPlanOf, at_range _ hj]
      refine (roundC_err _ (hd j)).2.trans ?_
      clear hd
      have h1 := mul_le_mul_of_nonneg_left (hρ.idft_le (vals zs) j) (show (0 : ℝ) ≤ 2 * u53 by linarith [u53_pos])
      have h2 : 6 * eta ≤ 2 ^ 60 * eta := mul_le_mul_of_nonneg_right (by norm_num) hη0.le
      linarith

/-- There are plans of every size with the accuracy of one rounding. -/
theorem idealPlan_accurate (n : ℕ) (hn0 : 0 < n) (hn : n ≤ 2 ^ 40) : PlanAccurate n (idealPlan n) (2 * u53) :=
  ⟨stdRoots n, stdRoots_roots hn0, idealPlanOf_accurate n hn _ (stdRoots_roots hn0)⟩

/-- The exact sine and cosine, rounded to nearest. -/
noncomputable def idealSinCos : F64 → F64 × F64
  | .fin q => (round64 (Real.sin q), round64 (Real.cos q))
  | _ => (.nan, .nan)

theorem idealSinCos_accurate : SinCosAccurate idealSinCos := by
  intro q _ _
  have key : ∀ x : ℝ, |x| ≤ 1 → ∃ s : ℚ, round64 x = .fin s ∧ |(s : ℝ) - x| ≤ 2 * u53 := by
    intro x hx
    obtain ⟨s, h1, _, h2⟩ := round64_err x (hx.trans (one_le_pow₀ (by norm_num)))
    refine ⟨s, h1, h2.trans ?_⟩
    have h3 : u53 * |x| ≤ u53 * 1 := mul_le_mul_of_nonneg_left hx u53_pos.le
    have h4 : 3 * eta ≤ 2 ^ 60 * eta := mul_le_mul_of_nonneg_right (by norm_num) eta_pos.le
    have h5 : tiny ≤ u53 := by
      unfold tiny u53
      exact one_div_le_one_div_of_le (by positivity) (pow_mono (by norm_num))
    linarith [eta_tiny]
  obtain ⟨s, s1, s2⟩ := key _ (Real.abs_sin_le_one q)
  obtain ⟨c, c1, c2⟩ := key _ (Real.abs_cos_le_one q)
  exact ⟨s, c, by rw [idealSinCos, s1, c1], s2, c2⟩

end Verif.Fft
