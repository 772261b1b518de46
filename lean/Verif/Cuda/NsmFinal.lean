import Verif.Cuda.NsmAccurate
/-
The transform of the GPU meets the hypothesis of the theorems on the bootstraps.
-/
namespace Verif.Cuda.Nsm
open Verif.Float Verif.Fft Finset Verif.Poly Verif.Ntt Verif.BV Verif.Cuda.Am

variable {w : Nat}

/-- The values before the conversion to the torus. -/
theorem gpu_values (hw : w = 32 ∨ w = 64) (ch : Contract) {K n : Nat} (hK : K + 1 ≤ 12) (hn : n = 2 ^ (K + 1)) {κ : ℝ}
    (hc : Consts n (26 * gam) κ) (M : Nat) (hM : 1 ≤ M) (hMκ : 2 * (M : ℝ) * gam ≤ κ) (D : ℤ) (hD : 1 ≤ D) (hD2 : D ≤ 2 ^ 64)
    (ps : List (List (BitVec w) × List (BitVec w))) (hlen : ps.length ≤ M)
    (hps : ∀ x ∈ ps, x.1.length = 2 * n ∧ x.2.length = 2 * n ∧ ∀ c ∈ x.2, |c.toInt| ≤ D) (o : (gpuTransform w ch n).E)
    (hsum : IsSum (gpuTransform w ch n) ps o) (j : Nat) (hj : j < n) :
    (at' (gpuInverse ch n o) j).Finite ∧
    ‖vals (gpuInverse ch n o) j - ((1 / (scaleQ w : ℝ) : ℝ) : ℂ) *
      (((convSum (2 * n) (ps.map fun x => (x.1.map BitVec.toInt, x.2.map BitVec.toInt)) j : ℤ) : ℂ) +
        ((convSum (2 * n) (ps.map fun x => (x.1.map BitVec.toInt, x.2.map BitVec.toInt)) (n + j) : ℤ) : ℂ) * Complex.I)‖ ≤
      10 * κ * (M * D * (2 * n)) := by
  have hκ0 : 0 ≤ κ := hc.eps0.trans hc.eps
  have hκ := hc.small
  have hρ : Roots n (rho n) := by rw [hn]; exact rho_roots (K + 1)
  have hDr : (1 : ℝ) ≤ D := by exact_mod_cast hD
  have hD90 : (D : ℝ) ≤ 2 ^ 90 := by
    have h1 : (D : ℝ) ≤ 2 ^ 64 := by exact_mod_cast hD2
    exact h1.trans (pow_mono (by norm_num))
  have hN : (1 : ℝ) ≤ n := by exact_mod_cast hc.n0
  have hn40 : (n : ℝ) ≤ 2 ^ 40 := by exact_mod_cast hc.n40
  have hM1 : (1 : ℝ) ≤ M := by exact_mod_cast hM
  have hmM : (ps.length : ℝ) ≤ M := by exact_mod_cast hlen
  have hm0 : (0 : ℝ) ≤ ps.length := Nat.cast_nonneg _
  -- the transforms
  let A : List (BitVec w) × List (BitVec w) → ℕ → ℂ := fun x =>
    dft n (rho n) (pack (1 / (scaleQ w : ℝ)) n (xi n) (x.1.map BitVec.toInt))
  let E : List (BitVec w) × List (BitVec w) → ℕ → ℂ := fun x => dft n (rho n) (pack 1 n (xi n) (x.2.map BitVec.toInt))
  have hA : ∀ x ∈ ps, FwdOut n κ 1 (keyT ch n x) (A x) := fun x _ => key_fwd hw ch hK hn hc x.1
  have hE : ∀ x ∈ ps, FwdOut n κ (2 * D) (digT ch n x) (E x) := fun x hx =>
    digits_fwd hw ch hK hn hc x.2 D hDr hD90 (by
      intro j hj
      have hj' : j < x.2.length := by rw [(hps x hx).2.1]; exact hj
      have := (hps x hx).2.2 (x.2.getD j 0) (by
        rw [List.getD_eq_getElem?_getD, List.getElem?_eq_getElem hj']
        exact List.getElem_mem hj')
      exact_mod_cast this)
  set P : ℝ := 1 * n * (2 * D * n) with hP
  have hP2 : 2 * n ≤ P := by
    rw [hP]
    have h1 : (n : ℝ) * 1 ≤ n * n := mul_le_mul_of_nonneg_left hN (by linarith)
    have h2 : 1 * ((n : ℝ) * n) ≤ D * (n * n) := mul_le_mul_of_nonneg_right hDr (by positivity)
    nlinarith
  have hP0 : 0 ≤ P := by linarith
  have hprod := fun x (hx : x ∈ ps) => (hA x hx).products (hE x hx) hκ0 (by norm_num) (by linarith)
  rw [← hP] at hprod
  -- the sum
  have h200 : ∀ k < n, FactorsOk ch n ps k := by
    intro k hk x hx
    refine ⟨(hA x hx).fin k hk, (hE x hx).fin k hk, ?_, ?_⟩
    · refine ((le_l2 _ hk).trans (hA x hx).norm).trans ?_
      calc (1 + 3 * κ) * (1 * n) ≤ 2 * (1 * 2 ^ 40) := mul_le_mul (by linarith) (by linarith) (by linarith) (by norm_num)
        _ = 2 ^ 41 := by norm_num
        _ ≤ 2 ^ 200 := pow_mono (by norm_num)
    · refine ((le_l2 _ hk).trans (hE x hx).norm).trans ?_
      calc (1 + 3 * κ) * (2 * D * n) ≤ 2 * (2 * 2 ^ 90 * 2 ^ 40) :=
            mul_le_mul (by linarith) (mul_le_mul (by linarith) hn40 (by linarith) (by norm_num))
              (mul_nonneg (by linarith) (by linarith)) (by norm_num)
        _ = 2 ^ 132 := by norm_num
        _ ≤ 2 ^ 200 := pow_mono (by norm_num)
  have hg := gam_pos
  have hm : 2 * (ps.length : ℝ) * gam ≤ κ := by nlinarith
  obtain ⟨_, ok⟩ := gpu_sum ch n ps o hsum
  have ok := fun k hk => ok k hk (h200 k hk) (hm.trans hκ)
  have oerr : ∀ k < n, ‖vals o k - prodSum ch n k ps‖ ≤ κ * modSum ch n k ps + 2 * M * tiny := by
    intro k hk
    have ht := tiny_pos
    have hG := modSum_nonneg ch n k ps
    by_cases h0 : ps = []
    · have h1 : vals o k = 0 := (ok k hk).zero h0
      have h2 : prodSum ch n k ps = 0 := by rw [h0]; rfl
      rw [h1, h2, sub_zero, norm_zero]
      have := mul_nonneg hκ0 hG
      have : 0 ≤ 2 * (M : ℝ) * tiny := by nlinarith
      linarith
    · have h1 := (ok k hk).err h0
      have h2 : (2 * (ps.length : ℝ) - 1) * (gam * modSum ch n k ps + tiny) ≤ 2 * ps.length * (gam * modSum ch n k ps + tiny) :=
        mul_le_mul_of_nonneg_right (by linarith) (add_nonneg (mul_nonneg hg.le hG) ht.le)
      have h3 := mul_le_mul_of_nonneg_right hm hG
      have h4 : 2 * (ps.length : ℝ) * tiny ≤ 2 * M * tiny := mul_le_mul_of_nonneg_right (by linarith) ht.le
      linarith
  set S : ℕ → ℂ := fun k => (ps.map fun x => A x k * E x k).sum with hSdef
  have hMP : (ps.length : ℝ) * P ≤ M * P := mul_le_mul_of_nonneg_right hmM hP0
  have hS : ∑ k ∈ range n, ‖S k‖ ≤ M * P := by
    refine (sum_le_sum fun k _ => norm_list ps fun x => A x k * E x k).trans ?_
    exact (sum_list_le n ps (fun x k => ‖A x k * E x k‖) P fun x hx => (hprod x hx).2.2).trans hMP
  have hTS : ∑ k ∈ range n, ‖prodSum ch n k ps - S k‖ ≤ ps.length * ((6 * κ + 9 * κ ^ 2) * P) := by
    refine (sum_le_sum fun k _ => norm_list_sub ps (fun x => vals (keyT ch n x) k * vals (digT ch n x) k) fun x => A x k * E x k).trans ?_
    exact sum_list_le n ps (fun x k => ‖vals (keyT ch n x) k * vals (digT ch n x) k - A x k * E x k‖) _ fun x hx => (hprod x hx).1
  have hG : ∑ k ∈ range n, modSum ch n k ps ≤ ps.length * ((1 + 3 * κ) ^ 2 * P) :=
    sum_list_le n ps (fun x k => ‖vals (keyT ch n x) k‖ * ‖vals (digT ch n x) k‖) _ fun x hx => (hprod x hx).2.1
  have hoS : ∑ k ∈ range n, ‖vals o k - S k‖ ≤ 8 * κ * (M * P) := by
    have h1 : ∀ k ∈ range n, ‖vals o k - S k‖ ≤ κ * modSum ch n k ps + 2 * M * tiny + ‖prodSum ch n k ps - S k‖ := by
      intro k hk
      have e1 := oerr k (mem_range.1 hk)
      have e2 := norm_add_le (vals o k - prodSum ch n k ps) (prodSum ch n k ps - S k)
      rw [sub_add_sub_cancel] at e2
      linarith
    refine (sum_le_sum h1).trans ?_
    rw [sum_add_distrib, sum_add_distrib, ← mul_sum, sum_const, card_range, nsmul_eq_mul]
    have e1 := mul_le_mul_of_nonneg_left hG hκ0
    have ht' := tiny_le_u
    have hu := hc.u
    have hu0 := u53_pos
    have hmP0 : 0 ≤ (M : ℝ) * P := mul_nonneg (by linarith) hP0
    have e2 : (n : ℝ) * (2 * M * tiny) ≤ 1 / 64 * (κ * (M * P)) := by
      have h2 : tiny ≤ κ / 64 := by linarith
      have h3 : (M : ℝ) * (2 * n) ≤ M * P := mul_le_mul_of_nonneg_left hP2 (by linarith)
      have h4 : (M : ℝ) * (2 * n) * tiny ≤ M * P * (κ / 64) := mul_le_mul h3 h2 tiny_pos.le hmP0
      linarith
    have e3 : κ * (κ * (M * P)) ≤ 1 / 100 * (κ * (M * P)) :=
      mul_le_mul_of_nonneg_right hκ (mul_nonneg hκ0 hmP0)
    have e4 : κ * (κ * (κ * (M * P))) ≤ 1 / 100 * (κ * (κ * (M * P))) :=
      mul_le_mul_of_nonneg_right hκ (mul_nonneg hκ0 (mul_nonneg hκ0 hmP0))
    have e5 : κ * (ps.length * ((1 + 3 * κ) ^ 2 * P)) ≤ κ * (M * P) + 6 * (κ * (κ * (M * P))) + 9 * (κ * (κ * (κ * (M * P)))) := by
      have : κ * (1 + 3 * κ) ^ 2 * (ps.length * P) ≤ κ * (1 + 3 * κ) ^ 2 * (M * P) :=
        mul_le_mul_of_nonneg_left hMP (by positivity)
      linarith
    have e6 : (ps.length : ℝ) * ((6 * κ + 9 * κ ^ 2) * P) ≤ 6 * (κ * (M * P)) + 9 * (κ * (κ * (M * P))) := by
      have : (6 * κ + 9 * κ ^ 2) * (ps.length * P) ≤ (6 * κ + 9 * κ ^ 2) * (M * P) :=
        mul_le_mul_of_nonneg_left hMP (by positivity)
      linarith
    have e8 : 0 ≤ κ * (M * P) := mul_nonneg hκ0 hmP0
    linarith
  have hQ1 : (n : ℝ) ≤ M * P := by
    have : 1 * P ≤ M * P := mul_le_mul_of_nonneg_right hM1 hP0
    linarith
  have hQ2 : M * P ≤ 2 ^ 199 := by
    have h1 : (M : ℝ) ≤ 2 ^ 48 := by
      have h : 2 * (M : ℝ) * gam = M / 2 ^ 48 := by unfold gam; ring
      rw [h, div_le_iff₀ (by positivity)] at hMκ
      have : (0 : ℝ) < 2 ^ 48 := by positivity
      nlinarith
    have hD64 : (D : ℝ) ≤ 2 ^ 64 := by exact_mod_cast hD2
    have h2 : P ≤ 1 * 2 ^ 40 * (2 * 2 ^ 64 * 2 ^ 40) := by
      rw [hP]
      exact mul_le_mul (by linarith) (mul_le_mul (by linarith) hn40 (by linarith) (by norm_num))
        (mul_nonneg (by linarith) (by linarith)) (by norm_num)
    have h3 : M * P ≤ 2 ^ 48 * (1 * 2 ^ 40 * (2 * 2 ^ 64 * 2 ^ 40)) :=
      mul_le_mul h1 h2 hP0 (by norm_num)
    refine h3.trans ?_
    calc (2 : ℝ) ^ 48 * (1 * 2 ^ 40 * (2 * 2 ^ 64 * 2 ^ 40)) = 2 ^ 193 := by norm_num
      _ ≤ 2 ^ 199 := pow_mono (by norm_num)
  let zs : List (List ℤ × List ℤ) := ps.map fun x => (x.1.map BitVec.toInt, x.2.map BitVec.toInt)
  have hzs : ∀ x ∈ zs, x.1.length = 2 * n ∧ x.2.length = 2 * n := by
    intro x hx
    obtain ⟨y, hy, rfl⟩ := List.mem_map.1 hx
    obtain ⟨a, b, _⟩ := hps y hy
    exact ⟨by simpa using a, by simpa using b⟩
  have hY : idft n (rho n) S j = n * (((1 / (scaleQ w : ℝ) : ℝ) : ℂ) *
      (((convSum (2 * n) zs j : ℤ) : ℂ) + ((convSum (2 * n) zs (n + j) : ℤ) : ℂ) * Complex.I) * xi n ^ j) := by
    rw [← idft_products hc.n0 hρ (1 / (scaleQ w : ℝ)) (xi n) (by rw [hn]; exact xi_pow (K + 1)) zs hzs hj]
    congr 1
    funext k
    simp only [zs, List.map_map]
    rfl
  obtain ⟨f, e⟩ := gpu_inverse_err ch hK hn hc hQ1 hQ2 o (fun k hk => (ok k hk).repr.finite) S hS hoS j hj _ hY
  refine ⟨f, e.trans (le_of_eq ?_)⟩
  have : (n : ℝ) ≠ 0 := by linarith
  rw [hP]
  field_simp

/-- A coefficient after the conversion. -/
theorem word_err (hw : w = 32 ∨ w = 64) (ch : Contract) (k : Nat) (second : Bool) (p : ℚ) (c : ℤ) (e X : ℝ)
    (hp : |(p : ℝ) - 1 / (scaleQ w : ℝ) * c| ≤ e) (hcX : |(c : ℝ)| ≤ 2 ^ w / 2 * X) (heX : 10 * e ≤ X) :
    ∃ K : ℤ, torusWord w ch k second (.fin p) = (K : BitVec w) ∧
      |(K : ℝ) - c| ≤ 2 ^ w * (e + 1 / 2 ^ 50) + (if w = 32 then X else 0) + 4 := by
  obtain ⟨K, hK, h⟩ := torusWord_near hw ch k second p
  refine ⟨K, hK, ?_⟩
  obtain ⟨s1, s2, s3⟩ := scale_le hw
  have hs0 : (0 : ℝ) < scaleQ w := by linarith
  have he0 : 0 ≤ e := (abs_nonneg _).trans hp
  have hX0 : 0 ≤ X := by linarith
  have h1 : |(scaleQ w : ℝ) * p - c| ≤ 2 ^ w * e := by
    have e1 : (scaleQ w : ℝ) * p - c = scaleQ w * ((p : ℝ) - 1 / (scaleQ w : ℝ) * c) := by
      field_simp
    rw [e1, abs_mul, abs_of_pos hs0]
    exact mul_le_mul s1 hp (abs_nonneg _) (by positivity)
  have hu : 8 * 2 ^ w * u53 = 2 ^ w * (1 / 2 ^ 50) := by unfold u53; ring
  rw [hu] at h
  have h2 : (2 ^ w - (scaleQ w : ℝ)) * (|(p : ℝ)| + 1) ≤ (if w = 32 then X else 0) + 1 := by
    have hc : |1 / (scaleQ w : ℝ) * c| ≤ 0.6 * X := by
      rw [abs_mul, abs_of_pos (by positivity : (0 : ℝ) < 1 / scaleQ w), one_div, inv_mul_le_iff₀ hs0]
      have : (2 : ℝ) ^ w / 2 * X ≤ (scaleQ w + 1) / 2 * X := mul_le_mul_of_nonneg_right (by linarith) hX0
      nlinarith
    have hpX : |(p : ℝ)| ≤ X := by
      have := abs_add_le ((p : ℝ) - 1 / (scaleQ w : ℝ) * c) (1 / (scaleQ w : ℝ) * c)
      rw [sub_add_cancel] at this
      linarith
    rcases hw with rfl | rfl
    · rw [if_pos rfl]
      have : (2 ^ 32 - (scaleQ 32 : ℝ)) * (|(p : ℝ)| + 1) ≤ 1 * (|(p : ℝ)| + 1) :=
        mul_le_mul_of_nonneg_right (by linarith) (by positivity)
      linarith
    · rw [if_neg (by decide)]
      have : (2 : ℝ) ^ 64 - (scaleQ 64 : ℝ) = 0 := by
        rw [scaleQ, if_neg (by decide)]; push_cast; ring
      rw [this]; norm_num
  have := abs_add_le ((K : ℝ) - scaleQ w * p) ((scaleQ w : ℝ) * p - c)
  rw [sub_add_sub_cancel] at this
  have e2 : (2 : ℝ) ^ w * (e + 1 / 2 ^ 50) = 2 ^ w * e + 2 ^ w * (1 / 2 ^ 50) := by ring
  rw [e2]
  linarith

/-- The bound of the error: `M` products of polynomials of `N` coefficients with digits of absolute value at most `D`. -/
noncomputable def gpuError (w N M : Nat) (D : ℤ) : ℝ :=
  2 ^ w * (10 * (1 / 2 ^ 44 + (M + 1) / 2 ^ 48) * (M * D * N) + 1 / 2 ^ 50) + (if w = 32 then M * D * N else 0) + 4

/-- The transform of the GPU is accurate. -/
theorem gpu_accurate (hw : w = 32 ∨ w = 64) (ch : Contract) (K : Nat) (hK : K + 1 ≤ 12) (M : Nat) (hM : 1 ≤ M)
    (hκ : (1 : ℝ) / 2 ^ 44 + (M + 1) / 2 ^ 48 ≤ 1 / 100) (D : ℤ) (hD : 1 ≤ D) (hD2 : D ≤ 2 ^ 64) (B : ℤ)
    (hB : gpuError w (2 ^ (K + 2)) M D ≤ B) :
    (gpuTransform w ch (2 ^ (K + 1))).Accurate (2 ^ (K + 2)) M D B := by
  set n := 2 ^ (K + 1) with hn
  have hn2 : 2 ^ (K + 2) = 2 * n := by rw [hn]; ring
  rw [hn2] at hB ⊢
  intro out ps e ho hlen hps hsum
  set κ : ℝ := 1 / 2 ^ 44 + (M + 1) / 2 ^ 48 with hκdef
  have hM0 : (0 : ℝ) ≤ M := Nat.cast_nonneg M
  have hgam : 2 * gam = 1 / 2 ^ 48 := by unfold gam; norm_num
  have hc : Consts n (26 * gam) κ := by
    refine ⟨by rw [hn]; positivity, ?_, by have := gam_pos; linarith, ?_, ?_, hκ⟩
    · rw [hn]; exact Nat.pow_le_pow_right (by norm_num) (by omega)
    · rw [show 26 * gam = 13 * (2 * gam) by ring, hgam, hκdef]
      have : (0 : ℝ) ≤ (M + 1) / 2 ^ 48 := by positivity
      norm_num at this ⊢
      linarith
    · rw [hgam, hκdef]
      have h1 : (1 : ℝ) / 2 ^ 48 ≤ (M + 1) / 2 ^ 48 := div_le_div_of_nonneg_right (by linarith) (by positivity)
      have h2 : (0 : ℝ) ≤ 1 / 2 ^ 44 := by positivity
      linarith
  have hMκ : 2 * (M : ℝ) * gam ≤ κ := by
    rw [show 2 * (M : ℝ) * gam = M * (2 * gam) by ring, hgam, hκdef, mul_one_div]
    have h1 : (M : ℝ) / 2 ^ 48 ≤ (M + 1) / 2 ^ 48 := div_le_div_of_nonneg_right (by linarith) (by positivity)
    have h2 : (0 : ℝ) ≤ 1 / 2 ^ 44 := by positivity
    linarith
  have hκ0 : 0 ≤ κ := hc.eps0.trans hc.eps
  have hDr : (1 : ℝ) ≤ D := by exact_mod_cast hD
  have hN : (1 : ℝ) ≤ n := by exact_mod_cast hc.n0
  -- the integer images
  let zs : List (List ℤ × List ℤ) := ps.map fun x => (x.1.map BitVec.toInt, x.2.map BitVec.toInt)
  have hzcast : zs.map (fun x => (x.1.map fun c : Int => (c : BitVec w), x.2.map fun c : Int => (c : BitVec w))) = ps := by
    simp only [zs, List.map_map]
    conv_rhs => rw [← List.map_id ps]
    apply List.map_congr_left
    intro x _
    simp only [Function.comp, List.map_map, id]
    have e2 : ∀ p : List (BitVec w), p.map ((fun c : Int => (c : BitVec w)) ∘ BitVec.toInt) = p := by
      intro p
      conv_rhs => rw [← List.map_id p]
      apply List.map_congr_left
      intro g _
      exact intCast_toInt g
    rw [e2 x.1, e2 x.2]
  set X : ℝ := M * D * (2 * n) with hX
  have hconv : ∀ k, k < 2 * n → |((convSum (2 * n) zs k : ℤ) : ℝ)| ≤ 2 ^ w / 2 * X := by
    intro k hk
    have hpw : (2 : ℤ) ^ w = 2 * 2 ^ (w - 1) := by
      rw [← pow_succ']; congr 1; omega
    have h1 : |convSum (2 * n) zs k| ≤ (zs.length : ℤ) * (((2 * n : ℕ) : ℤ) * (2 ^ (w - 1) * D)) := by
      apply convSum_abs _ _ _ _ (by positivity) (by omega) _ _ hk
      intro x hx
      obtain ⟨z, hz, rfl⟩ := List.mem_map.1 hx
      refine ⟨fun c hc => ?_, fun c hc => ?_⟩
      · obtain ⟨v, _, rfl⟩ := List.mem_map.1 hc
        have a1 := BitVec.le_two_mul_toInt (x := v)
        have a2 := BitVec.two_mul_toInt_lt (x := v)
        rw [abs_le]; constructor <;> omega
      · obtain ⟨v, hv, rfl⟩ := List.mem_map.1 hc
        exact (hps z hz).2.2 v hv
    have h2 : |((convSum (2 * n) zs k : ℤ) : ℝ)| ≤ (zs.length : ℝ) * ((2 * n) * (2 ^ (w - 1) * D)) := by exact_mod_cast h1
    have h3 : (2 : ℝ) ^ w / 2 = 2 ^ (w - 1) := by
      have : (2 : ℝ) ^ w = 2 * 2 ^ (w - 1) := by exact_mod_cast hpw
      rw [this]; ring
    have h4 : (zs.length : ℝ) ≤ M := by simp only [zs, List.length_map]; exact_mod_cast hlen
    refine h2.trans ((mul_le_mul_of_nonneg_right h4 (by positivity)).trans (le_of_eq ?_))
    rw [h3, hX]; ring
  have main : ∃ K : ℕ → ℤ, (gpuTransform w ch n).addBack out e =
        (List.range (2 * n)).map (fun k => out.getD k 0 + ((K k : ℤ) : BitVec w)) ∧
      ∀ k, k < 2 * n → |K k - convSum (2 * n) zs k| ≤ B := by
    have hX0 : 0 ≤ X := mul_nonneg (mul_nonneg hM0 (by linarith)) (by linarith)
    have hXe : 10 * (10 * κ * X) ≤ X := by nlinarith
    have hword : ∀ k, k < 2 * n → ∃ L : ℤ,
        (if k < n then torusWord w ch k false (at' (gpuInverse ch n e) k).re
          else torusWord w ch k true (at' (gpuInverse ch n e) (k - n)).im) = (L : BitVec w) ∧
        |L - convSum (2 * n) zs k| ≤ B := by
      intro k hk
      have cast : ∀ L : ℤ, |(L : ℝ) - ((convSum (2 * n) zs k : ℤ) : ℝ)| ≤ 2 ^ w * (10 * κ * X + 1 / 2 ^ 50) + (if w = 32 then X else 0) + 4 →
          |L - convSum (2 * n) zs k| ≤ B := by
        intro L hL
        have : |(L : ℝ) - ((convSum (2 * n) zs k : ℤ) : ℝ)| ≤ (B : ℝ) := by
          refine hL.trans (le_trans (le_of_eq ?_) hB)
          rw [gpuError]; push_cast; rfl
        exact_mod_cast this
      by_cases hkn : k < n
      · obtain ⟨f, he⟩ := gpu_values hw ch hK hn hc M hM hMκ D hD hD2 ps hlen hps e hsum k hkn
        obtain ⟨p, q, hz⟩ := f.exists
        obtain ⟨h1, _⟩ := parts_le _ _ he
        rw [vals, hz] at h1
        have h2 : |(p : ℝ) - 1 / (scaleQ w : ℝ) * ((convSum (2 * n) zs k : ℤ) : ℝ)| ≤ 10 * κ * X := by
          refine le_trans (le_of_eq ?_) h1
          congr 1
          rw [Complex.sub_re, Complex.re_ofReal_mul, val_fin]
          simp [zs]
        obtain ⟨L, hL, hb⟩ := word_err hw ch k false p _ _ X h2 (hconv k hk) hXe
        exact ⟨L, by rw [if_pos hkn, hz]; exact hL, cast L hb⟩
      · obtain ⟨f, he⟩ := gpu_values hw ch hK hn hc M hM hMκ D hD hD2 ps hlen hps e hsum (k - n) (by omega)
        obtain ⟨p, q, hz⟩ := f.exists
        obtain ⟨_, h1⟩ := parts_le _ _ he
        rw [vals, hz, show n + (k - n) = k by omega] at h1
        have h2 : |(q : ℝ) - 1 / (scaleQ w : ℝ) * ((convSum (2 * n) zs k : ℤ) : ℝ)| ≤ 10 * κ * X := by
          refine le_trans (le_of_eq ?_) h1
          congr 1
          rw [Complex.sub_im, Complex.im_ofReal_mul, val_fin]
          simp [zs]
        obtain ⟨L, hL, hb⟩ := word_err hw ch k true q _ _ X h2 (hconv k hk) hXe
        exact ⟨L, by rw [if_neg hkn, hz]; exact hL, cast L hb⟩
    have hword' : ∀ k, ∃ L : ℤ, k < 2 * n →
        (if k < n then torusWord w ch k false (at' (gpuInverse ch n e) k).re
          else torusWord w ch k true (at' (gpuInverse ch n e) (k - n)).im) = (L : BitVec w) ∧
        |L - convSum (2 * n) zs k| ≤ B := by
      intro k
      by_cases hk : k < 2 * n
      · obtain ⟨L, h⟩ := hword k hk
        exact ⟨L, fun _ => h⟩
      · exact ⟨0, fun h => absurd h hk⟩
    choose L hL using hword'
    refine ⟨L, ?_, fun k hk => (hL k hk).2⟩
    show addToTorus ch n out (gpuInverse ch n e) = _
    rw [addToTorus]
    apply List.map_congr_left
    intro k hk
    rw [← (hL k (List.mem_range.1 hk)).1]
  obtain ⟨K, hK1, hK2⟩ := main
  rw [hK1]
  refine ⟨by simp, toRq (2 * n) ((List.range (2 * n)).map fun k => ((K k - convSum (2 * n) zs k : Int) : BitVec w)), ?_, ?_⟩
  · refine ⟨(List.range (2 * n)).map fun k => K k - convSum (2 * n) zs k, by simp, fun x hx => ?_, ?_⟩
    · obtain ⟨k, hk, rfl⟩ := List.mem_map.1 hx
      exact hK2 k (List.mem_range.1 hk)
    · rw [List.map_map]; rfl
  · have hprod := toRq_convSum (2 * n) (by have := hc.n0; omega) ps (fun x hx => ⟨(hps x hx).1, (hps x hx).2.1⟩)
    rw [← hprod, add_assoc, ← toRq_add _ _ _ (by simp), ← toRq_add _ _ _ (by
      rw [Poly.add, zipUpdate_length]; simp [ho])]
    congr 1
    apply list_ext_getD
    · rw [Poly.add, zipUpdate_length]; simp [ho]
    · intro k hk
      simp only [List.length_map, List.length_range] at hk
      have hc' : convSum (2 * n) ps k = ((convSum (2 * n) zs k : Int) : BitVec w) := by
        rw [← convSum_cast (R := BitVec w) (2 * n) zs k, hzcast]
      rw [Poly.add, zipUpdate_getD _ _ _ k 0 0 (by simpa [ho] using hk)
        (by rw [Poly.add, zipUpdate_length]; simpa using hk), Poly.add,
        zipUpdate_getD _ _ _ k 0 0 (by simpa using hk) (by simpa using hk)]
      simp only [List.getD_eq_getElem?_getD, List.getElem?_map, List.getElem?_range hk, Option.map_some,
        Option.getD_some, hc']
      push_cast
      ring

end Verif.Cuda.Nsm
