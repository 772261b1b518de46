import Verif.Cuda.NsmTorus
import Verif.Cuda.LowLatencyLemmas
import Verif.Fft.Accurate
/-
The products computed with the Fourier transform of the GPU.
-/
namespace Verif.Cuda.Nsm
open Verif.Float Verif.Fft Finset

variable {w : Nat}

/-- The direct transform of an approximation. -/
theorem gpu_forward (ch : Contract) {K n : Nat} (hK : K + 1 ≤ 12) (hn : n = 2 ^ (K + 1)) {κ β : ℝ} (hc : Consts n (26 * gam) κ)
    (hβ : 1 ≤ β) (hβ2 : β ≤ 2 ^ 100) (zs : List C64) (hfin : ∀ j, j < n → (at' zs j).Finite) (Z : ℕ → ℂ)
    (hZ : ∀ j, j < n → ‖Z j‖ ≤ β) (he : ∀ j, j < n → ‖vals zs j - Z j‖ ≤ κ * β) :
    FwdOut n κ β (gpuDirect ch n zs) (dft n (rho n) (fun j => Z j * xi n ^ j)) := by
  have hN : (1 : ℝ) ≤ n := by exact_mod_cast hc.n0
  have hρ : Roots n (rho n) := by rw [hn]; exact rho_roots (K + 1)
  have hu0 := u53_pos
  have hu := hc.u
  have hκ := hc.small
  have hκ0 : 0 ≤ κ := hc.eps0.trans hc.eps
  have hβ0 : 0 ≤ β := by linarith
  have hκβ0 : 0 ≤ κ * β := mul_nonneg hκ0 hβ0
  have hκβ : κ * β ≤ 1 / 100 * β := mul_le_mul_of_nonneg_right hκ hβ0
  have hz : ∀ j, j < n → ‖vals zs j‖ ≤ 1.01 * β := by
    intro j hj
    have := norm_add_le (vals zs j - Z j) (Z j)
    rw [sub_add_cancel] at this
    have := he j hj
    have := hZ j hj
    linarith
  have hb : ∀ p < n, (at' zs p).Finite ∧ ‖(at' zs p).val‖ ≤ 2 ^ 200 := by
    intro k hk
    refine ⟨hfin k hk, (hz k hk).trans ?_⟩
    have h1 : (2 : ℝ) * 2 ^ 100 ≤ 2 ^ 200 := by
      rw [← pow_succ']
      exact pow_mono (by norm_num)
    generalize (2 : ℝ) ^ 200 = A at *
    generalize (2 : ℝ) ^ 100 = B at *
    linarith
  clear hβ2
  obtain ⟨f2, f3⟩ := direct_err ch K hK (at' zs) (by rw [← hn]; exact hb)
  rw [← hn] at f2 f3
  have hs := sqrt_mul_self' n
  have hs0 : 0 ≤ Real.sqrt n := Real.sqrt_nonneg _
  have hval : ∀ k, k < n → vals (gpuDirect ch n zs) k = (direct (floatOps ch) twiddle n (at' zs) k).val := by
    intro k hk
    rw [vals, gpuDirect, at_map _ hk]
  refine ⟨by simp [gpuDirect], ?_, ?_, ?_⟩
  · intro k hk
    rw [gpuDirect, at_map _ hk]
    exact f2 k hk
  · have e : ∀ k, k < n → vals (gpuDirect ch n zs) k - dft n (rho n) (fun j => Z j * xi n ^ j) k =
        ((direct (floatOps ch) twiddle n (at' zs) k).val - direct (cOps n) rootW n (fun p => (at' zs p).val) k) +
          dft n (rho n) (fun j => (vals zs j - Z j) * xi n ^ j) k := by
      intro k hk
      have e1 : dft n (rho n) (fun j => (vals zs j - Z j) * xi n ^ j) k =
          dft n (rho n) (fun j => vals zs j * xi n ^ j) k - dft n (rho n) (fun j => Z j * xi n ^ j) k := by
        rw [← dft_sub]; congr 1; funext j; ring
      have e2 := direct_dft K (fun p => (at' zs p).val) k (by rw [← hn]; exact hk)
      rw [← hn] at e2
      rw [hval k hk, e1, e2]
      show _ = _ - dft n (rho n) (fun j => vals zs j * xi n ^ j) k + _
      ring
    rw [l2_congr e]
    refine (l2_add_le _ _ _).trans ?_
    rw [hρ.parseval]
    have h1 : l2 n (fun j => (vals zs j - Z j) * xi n ^ j) ≤ Real.sqrt n * (κ * β) := l2_le_of_le hκβ0 fun j hj => by
      rw [norm_mul, norm_xi_pow, mul_one]; exact he j hj
    have h2 : l2 n (fun p => (at' zs p).val) ≤ Real.sqrt n * (1.01 * β) := l2_le_of_le (by linarith) hz
    have h3 : Real.sqrt n * l2 n (fun j => (vals zs j - Z j) * xi n ^ j) ≤ n * (κ * β) := by
      calc _ ≤ Real.sqrt n * (Real.sqrt n * (κ * β)) := mul_le_mul_of_nonneg_left h1 hs0
        _ = (Real.sqrt n * Real.sqrt n) * (κ * β) := by ring
        _ = _ := by rw [hs]
    have h4 : Real.sqrt n * l2 n (fun p => (at' zs p).val) ≤ n * (1.01 * β) := by
      calc _ ≤ Real.sqrt n * (Real.sqrt n * (1.01 * β)) := mul_le_mul_of_nonneg_left h2 hs0
        _ = (Real.sqrt n * Real.sqrt n) * (1.01 * β) := by ring
        _ = _ := by rw [hs]
    have h5 : 24 * gam * (Real.sqrt n * l2 n (fun p => (at' zs p).val)) ≤ κ * (n * (1.01 * β)) :=
      mul_le_mul (by linarith [hc.eps, gam_pos]) h4 (mul_nonneg hs0 (l2_nonneg _ _)) hκ0
    have h6 : κ ≤ κ * β * n := by
      have : κ * 1 ≤ κ * β := mul_le_mul_of_nonneg_left hβ hκ0
      have : κ * β * 1 ≤ κ * β * n := mul_le_mul_of_nonneg_left hN hκβ0
      linarith
    have h7 : κ * (n * (1.01 * β)) = 1.01 * (κ * β * n) := by ring
    have h8 : (n : ℝ) * (κ * β) = κ * β * n := by ring
    have h9 : 3 * κ * β * n = 3 * (κ * β * n) := by ring
    linarith
  · rw [hρ.parseval]
    have h1 : l2 n (fun j => Z j * xi n ^ j) ≤ Real.sqrt n * β := l2_le_of_le hβ0 fun j hj => by
      rw [norm_mul, norm_xi_pow, mul_one]; exact hZ j hj
    calc _ ≤ Real.sqrt n * (Real.sqrt n * β) := mul_le_mul_of_nonneg_left h1 hs0
      _ = (Real.sqrt n * Real.sqrt n) * β := by ring
      _ = β * n := by rw [hs]; ring

theorem fdiv_fin (a b : ℚ) (hb : b ≠ 0) : (F64.fin a).div (.fin b) = ofRat (a / b) := by
  simp [F64.div, hb]

/-- A coefficient of the key. -/
theorem key_err (hw : w = 32 ∨ w = 64) (x : BitVec w) :
    ∃ q : ℚ, (ofSigned x).div (maxTorus w) = .fin q ∧
      |(q : ℝ) - (1 / (scaleQ w : ℝ)) * x.toInt| ≤ 2 * u53 * 1 ∧ |(1 / (scaleQ w : ℝ)) * x.toInt| ≤ 0.6 := by
  obtain ⟨s1, s2, s3⟩ := scale_le hw
  have hX : |(x.toInt : ℝ)| ≤ 2 ^ w / 2 := by
    have h1 : |2 * x.toInt| ≤ 2 ^ w := by
      have := BitVec.le_two_mul_toInt (x := x)
      have := BitVec.two_mul_toInt_lt (x := x)
      rw [abs_le]; constructor <;> omega
    have h2 : |(2 : ℝ) * x.toInt| ≤ 2 ^ w := by exact_mod_cast h1
    rw [abs_mul, abs_two] at h2
    linarith
  generalize hs : scaleQ w = s at *
  have hs0 : (0 : ℝ) < s := by linarith
  have hsQ : s ≠ 0 := by rintro rfl; simp at hs0
  have hXs : |(1 / (s : ℝ)) * x.toInt| ≤ 0.501 := by
    rw [abs_mul, abs_of_pos (by positivity : (0 : ℝ) < 1 / s), one_div, inv_mul_le_iff₀ hs0]
    linarith
  have h1 := rnd_real (x.toInt : ℚ)
  push_cast at h1
  have hu := u53_pos
  have hu1 := u53_le
  have ht := tiny_le_u
  have ht0 := tiny_pos
  have hdiv : |((rnd (x.toInt : ℚ) : ℚ) : ℝ) / s - (1 / (s : ℝ)) * x.toInt| ≤ 0.6 * u53 := by
    have e : ((rnd (x.toInt : ℚ) : ℚ) : ℝ) / s - (1 / (s : ℝ)) * x.toInt =
      (1 / s) * (((rnd (x.toInt : ℚ) : ℚ) : ℝ) - x.toInt) := by ring
    rw [e, abs_mul, abs_of_pos (by positivity : (0 : ℝ) < 1 / s)]
    rw [abs_mul, abs_of_pos (by positivity : (0 : ℝ) < 1 / s)] at hXs
    have h3 : (1 / s : ℝ) ≤ 1 := by rw [div_le_one hs0]; linarith
    have h4 := mul_le_mul_of_nonneg_left h1 (by positivity : (0 : ℝ) ≤ 1 / s)
    have h5 : (1 / s : ℝ) * (tiny / 64) ≤ 1 * (tiny / 64) := mul_le_mul_of_nonneg_right h3 (by positivity)
    have h6 := mul_le_mul_of_nonneg_left hXs hu.le
    have h7 : (1 / s : ℝ) * (u53 * |(x.toInt : ℝ)| + tiny / 64) = u53 * (1 / s * |(x.toInt : ℝ)|) + 1 / s * (tiny / 64) := by ring
    linarith
  have hsmall : |((rnd (x.toInt : ℚ) / s : ℚ) : ℝ)| ≤ 1 := by
    push_cast
    rw [abs_le] at hdiv hXs ⊢
    constructor <;> linarith [hdiv.1, hdiv.2, hXs.1, hXs.2]
  refine ⟨rnd (rnd (x.toInt : ℚ) / s), ?_, ?_, hXs.trans (by norm_num)⟩
  · rw [ofSigned_fin x (by omega), maxTorus_eq hw, hs, fdiv_fin _ _ hsQ]
    apply ofRat_real
    exact hsmall.trans (one_le_pow₀ (by norm_num))
  · have h2 := rnd_real (rnd (x.toInt : ℚ) / s)
    have h3 := mul_le_mul_of_nonneg_left hsmall hu.le
    push_cast at h2 h3
    rw [abs_le] at h2 hdiv ⊢
    constructor <;> linarith [h2.1, h2.2, hdiv.1, hdiv.2]

/-- The transform of a polynomial of the key. -/
theorem key_fwd (hw : w = 32 ∨ w = 64) (ch : Contract) {K n : Nat} (hK : K + 1 ≤ 12) (hn : n = 2 ^ (K + 1)) {κ : ℝ}
    (hc : Consts n (26 * gam) κ) (p : List (BitVec w)) :
    FwdOut n κ 1 (gpuDirect ch n (compressKey n p))
      (dft n (rho n) (pack (1 / (scaleQ w : ℝ)) n (xi n) (p.map BitVec.toInt))) := by
  have e : pack (1 / (scaleQ w : ℝ)) n (xi n) (p.map BitVec.toInt) =
      fun j => packed (1 / (scaleQ w : ℝ)) (p.getD j 0) (p.getD (n + j) 0) * xi n ^ j := by
    funext j; exact pack_eq _ _ _ _ _
  rw [e]
  have hu := hc.u
  have hu0 := u53_pos
  refine gpu_forward ch hK hn hc le_rfl (one_le_pow₀ (by norm_num)) _ ?_ _ ?_ ?_
  · intro j hj
    rw [compressKey, at_map _ hj]
    obtain ⟨a, ha, _⟩ := key_err hw (p.getD j 0)
    obtain ⟨b, hb, _⟩ := key_err hw (p.getD (n + j) 0)
    rw [ha, hb]
    exact ⟨trivial, trivial⟩
  · intro j _
    obtain ⟨a, _, _, ba⟩ := key_err hw (p.getD j 0)
    obtain ⟨b, _, _, bb⟩ := key_err hw (p.getD (n + j) 0)
    rw [packed_eq]
    generalize (1 / (scaleQ w : ℝ)) * ((p.getD j 0).toInt : ℝ) = X at *
    generalize (1 / (scaleQ w : ℝ)) * ((p.getD (n + j) 0).toInt : ℝ) = Y at *
    have h : ‖(X : ℂ) + (Y : ℂ) * Complex.I‖ ^ 2 = X ^ 2 + Y ^ 2 := by
      rw [← Complex.normSq_eq_norm_sq, Complex.normSq_add_mul_I]
    have h1 : X ^ 2 ≤ 0.6 ^ 2 := by rw [← sq_abs]; exact pow_le_pow_left₀ (abs_nonneg _) ba 2
    have h2 : Y ^ 2 ≤ 0.6 ^ 2 := by rw [← sq_abs]; exact pow_le_pow_left₀ (abs_nonneg _) bb 2
    nlinarith [norm_nonneg ((X : ℂ) + (Y : ℂ) * Complex.I)]
  · intro j hj
    rw [vals, compressKey, at_map _ hj]
    obtain ⟨a, ha, ea, _⟩ := key_err hw (p.getD j 0)
    obtain ⟨b, hb, eb, _⟩ := key_err hw (p.getD (n + j) 0)
    rw [ha, hb, packed_eq]
    refine (pair_err a b _ _ _ ea eb).trans ?_
    linarith

/-- The transform of a polynomial of digits. -/
theorem digits_fwd (hw : w = 32 ∨ w = 64) (ch : Contract) {K n : Nat} (hK : K + 1 ≤ 12) (hn : n = 2 ^ (K + 1)) {κ : ℝ}
    (hc : Consts n (26 * gam) κ) (p : List (BitVec w)) (D : ℝ) (hD : 1 ≤ D) (hD2 : D ≤ 2 ^ 90)
    (hpD : ∀ j, j < 2 * n → |((p.getD j 0).toInt : ℝ)| ≤ D) :
    FwdOut n κ (2 * D) (gpuDirect ch n (compressDigits n p)) (dft n (rho n) (pack 1 n (xi n) (p.map BitVec.toInt))) := by
  have e : pack 1 n (xi n) (p.map BitVec.toInt) = fun j => packed 1 (p.getD j 0) (p.getD (n + j) 0) * xi n ^ j := by
    funext j; exact pack_eq _ _ _ _ _
  rw [e]
  have hu := hc.u
  have hu0 := u53_pos
  have hw128 : w ≤ 128 := by omega
  have key := fun j (hj : j < 2 * n) => signed_err (p.getD j 0) hw128 (2 * D) (by linarith) (by linarith [hpD j hj])
  have h100 : 2 * D ≤ 2 ^ 100 := by
    have : (2 : ℝ) * 2 ^ 90 ≤ 2 ^ 100 := by norm_num
    linarith
  refine gpu_forward ch hK hn hc (by linarith) h100 _ ?_ _ ?_ ?_
  · intro j hj
    rw [compressDigits, at_map _ hj]
    obtain ⟨a, ha, _⟩ := key j (by omega)
    obtain ⟨b, hb, _⟩ := key (n + j) (by omega)
    rw [ha, hb]
    exact ⟨trivial, trivial⟩
  · intro j hj
    rw [packed_eq]
    simp only [one_mul]
    exact norm_parts (hpD j (by omega)) (hpD (n + j) (by omega))
  · intro j hj
    rw [vals, compressDigits, at_map _ hj]
    obtain ⟨a, ha, ea⟩ := key j (by omega)
    obtain ⟨b, hb, eb⟩ := key (n + j) (by omega)
    rw [ha, hb, packed_eq]
    simp only [one_mul]
    refine (pair_err a b _ _ _ ea eb).trans ?_
    nlinarith

end Verif.Cuda.Nsm
