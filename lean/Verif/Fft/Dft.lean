import Mathlib.Analysis.Complex.Basic
import Mathlib.Analysis.InnerProductSpace.PiL2
import Mathlib.LinearAlgebra.Matrix.NonsingularInverse
import Mathlib.Algebra.Order.BigOperators.Ring.Finset
/-
The discrete Fourier transform at all `n`-th roots of unity, in some order, over the complex numbers.
-/
namespace Verif.Fft
open Finset

/-- The Euclidean norm of the first `n` values. -/
noncomputable def l2 (n : ℕ) (f : ℕ → ℂ) : ℝ := Real.sqrt (∑ k ∈ range n, ‖f k‖ ^ 2)

/-- The transform: the values of the polynomial `Σ z_j X^j` at the points `ρ`. -/
noncomputable def dft (n : ℕ) (ρ : ℕ → ℂ) (z : ℕ → ℂ) (k : ℕ) : ℂ := ∑ j ∈ range n, z j * ρ k ^ j

/-- The unnormalised inverse transform. -/
noncomputable def idft (n : ℕ) (ρ : ℕ → ℂ) (f : ℕ → ℂ) (j : ℕ) : ℂ := ∑ k ∈ range n, f k * (ρ k)⁻¹ ^ j

/-- `ρ` enumerates the `n`-th roots of unity. -/
def Roots (n : ℕ) (ρ : ℕ → ℂ) : Prop :=
  (∀ k, k < n → ρ k ^ n = 1) ∧ ∀ k k', k < n → k' < n → ρ k = ρ k' → k = k'

theorem l2_eq (n : ℕ) (f : ℕ → ℂ) : l2 n f = ‖WithLp.toLp 2 (fun k : Fin n => f k)‖ := by
  rw [l2, EuclideanSpace.norm_eq]
  congr 1
  exact (Fin.sum_univ_eq_sum_range (fun k => ‖f k‖ ^ 2) n).symm

theorem l2_nonneg (n : ℕ) (f : ℕ → ℂ) : 0 ≤ l2 n f := Real.sqrt_nonneg _

theorem l2_add_le (n : ℕ) (f g : ℕ → ℂ) : l2 n (fun k => f k + g k) ≤ l2 n f + l2 n g := by
  simp only [l2_eq]
  exact norm_add_le (WithLp.toLp 2 (fun k : Fin n => f k)) (WithLp.toLp 2 (fun k : Fin n => g k))

theorem l2_sq (n : ℕ) (f : ℕ → ℂ) : l2 n f ^ 2 = ∑ k ∈ range n, ‖f k‖ ^ 2 :=
  Real.sq_sqrt (sum_nonneg fun _ _ => by positivity)

theorem l2_le_of_le {n : ℕ} {f : ℕ → ℂ} {B : ℝ} (hB : 0 ≤ B) (h : ∀ k, k < n → ‖f k‖ ≤ B) :
    l2 n f ≤ Real.sqrt n * B := by
  rw [l2, ← Real.sqrt_sq hB, ← Real.sqrt_mul (by positivity)]
  apply Real.sqrt_le_sqrt
  refine (sum_le_sum (g := fun _ => B ^ 2) fun k hk => ?_).trans (by simp)
  exact pow_le_pow_left₀ (norm_nonneg _) (h k (mem_range.1 hk)) 2

theorem l2_mono {n : ℕ} {f g : ℕ → ℂ} (h : ∀ k, k < n → ‖f k‖ ≤ ‖g k‖) : l2 n f ≤ l2 n g := by
  apply Real.sqrt_le_sqrt
  exact sum_le_sum fun k hk => pow_le_pow_left₀ (norm_nonneg _) (h k (mem_range.1 hk)) 2

theorem l2_congr {n : ℕ} {f g : ℕ → ℂ} (h : ∀ k, k < n → f k = g k) : l2 n f = l2 n g := by
  unfold l2
  rw [sum_congr rfl fun k hk => by rw [h k (mem_range.1 hk)]]

theorem le_l2 {n : ℕ} (f : ℕ → ℂ) {k : ℕ} (hk : k < n) : ‖f k‖ ≤ l2 n f := by
  rw [l2]
  apply Real.le_sqrt_of_sq_le
  exact single_le_sum (f := fun k => ‖f k‖ ^ 2) (fun _ _ => by positivity) (mem_range.2 hk)

/-- Cauchy–Schwarz. -/
theorem sum_mul_le (n : ℕ) (f g : ℕ → ℂ) : ∑ k ∈ range n, ‖f k‖ * ‖g k‖ ≤ l2 n f * l2 n g :=
  Real.sum_mul_le_sqrt_mul_sqrt _ _ _

variable {n : ℕ} {ρ : ℕ → ℂ}

theorem Roots.norm (h : Roots n ρ) {k : ℕ} (hk : k < n) : ‖ρ k‖ = 1 :=
  Complex.norm_eq_one_of_pow_eq_one (h.1 k hk) (by omega)

theorem Roots.ne_zero (h : Roots n ρ) {k : ℕ} (hk : k < n) : ρ k ≠ 0 := by
  intro e
  have := h.norm hk
  rw [e, norm_zero] at this
  exact zero_ne_one this

theorem Roots.rows (h : Roots n ρ) {k k' : ℕ} (hk : k < n) (hk' : k' < n) :
    ∑ j ∈ range n, ρ k ^ j * (ρ k')⁻¹ ^ j = if k = k' then (n : ℂ) else 0 := by
  simp only [← mul_pow]
  split
  · rename_i e
    subst e
    rw [mul_inv_cancel₀ (h.ne_zero hk)]
    simp
  · rename_i e
    have hx : ρ k * (ρ k')⁻¹ ≠ 1 := by
      intro hx
      exact e (h.2 k k' hk hk' (by rwa [mul_inv_eq_one₀ (h.ne_zero hk')] at hx))
    have hn : (ρ k * (ρ k')⁻¹) ^ n = 1 := by rw [mul_pow, inv_pow, h.1 k hk, h.1 k' hk', inv_one, mul_one]
    rw [geom_sum_eq hx, hn, sub_self, zero_div]

theorem Roots.cols (h : Roots n ρ) {j j' : ℕ} (hj : j < n) (hj' : j' < n) :
    ∑ k ∈ range n, ρ k ^ j * (ρ k)⁻¹ ^ j' = if j = j' then (n : ℂ) else 0 := by
  have hn : (n : ℂ) ≠ 0 := by exact_mod_cast (by omega : n ≠ 0)
  let V : Matrix (Fin n) (Fin n) ℂ := fun k j => ρ k ^ (j : ℕ)
  let W : Matrix (Fin n) (Fin n) ℂ := fun j k => (n : ℂ)⁻¹ * (ρ k)⁻¹ ^ (j : ℕ)
  have h1 : V * W = 1 := by
    ext k k'
    rw [Matrix.mul_apply]
    simp only [V, W]
    have := h.rows k.2 k'.2
    rw [← Fin.sum_univ_eq_sum_range (fun j => ρ k ^ j * (ρ k')⁻¹ ^ j) n] at this
    rw [show ∑ x : Fin n, ρ k ^ (x : ℕ) * ((n : ℂ)⁻¹ * (ρ k')⁻¹ ^ (x : ℕ)) =
      (n : ℂ)⁻¹ * ∑ x : Fin n, ρ k ^ (x : ℕ) * (ρ k')⁻¹ ^ (x : ℕ) by
        rw [mul_sum]; exact sum_congr rfl fun x _ => by ring, this, Matrix.one_apply]
    by_cases e : k = k'
    · rw [if_pos (congrArg _ e), if_pos e, inv_mul_cancel₀ hn]
    · rw [if_neg (fun e' => e (Fin.ext e')), if_neg e, mul_zero]
  have h2 : W * V = 1 := mul_eq_one_comm.1 h1
  have h3 := congrFun (congrFun h2 ⟨j', hj'⟩) ⟨j, hj⟩
  rw [Matrix.mul_apply] at h3
  simp only [V, W] at h3
  rw [Matrix.one_apply] at h3
  rw [← Fin.sum_univ_eq_sum_range (fun k => ρ k ^ j * (ρ k)⁻¹ ^ j') n]
  have e : ∑ x : Fin n, (n : ℂ)⁻¹ * (ρ x)⁻¹ ^ j' * ρ x ^ j = (n : ℂ)⁻¹ * ∑ x : Fin n, ρ x ^ j * (ρ x)⁻¹ ^ j' := by
    rw [mul_sum]; exact sum_congr rfl fun x _ => by ring
  rw [e] at h3
  have e2 : ∑ x : Fin n, ρ x ^ j * (ρ x)⁻¹ ^ j' = (n : ℂ) * (if (⟨j', hj'⟩ : Fin n) = ⟨j, hj⟩ then 1 else 0) := by
    rw [← h3, mul_inv_cancel_left₀ hn]
  rw [e2]
  by_cases e : j = j'
  · subst e; simp
  · rw [if_neg e, if_neg (fun e' => e (Fin.mk.inj_iff.1 e').symm), mul_zero]

/-- The transforms are inverse of each other up to `n`. -/
theorem Roots.idft_dft (h : Roots n ρ) (z : ℕ → ℂ) {j : ℕ} (hj : j < n) : idft n ρ (dft n ρ z) j = n * z j := by
  unfold idft dft
  simp only [sum_mul]
  rw [sum_comm]
  rw [sum_congr rfl fun i hi => show _ = z i * (if i = j then (n : ℂ) else 0) by
    rw [← h.cols (mem_range.1 hi) hj, mul_sum]
    exact sum_congr rfl fun k _ => by ring]
  simp only [mul_ite, mul_zero, sum_ite_eq', mem_range, hj, if_true]
  ring

theorem Roots.conj (h : Roots n ρ) {k : ℕ} (hk : k < n) : (starRingEnd ℂ) (ρ k) = (ρ k)⁻¹ := by
  rw [Complex.inv_def, Complex.normSq_eq_norm_sq, h.norm hk]
  simp

/-- Parseval. -/
theorem Roots.parseval (h : Roots n ρ) (z : ℕ → ℂ) : l2 n (dft n ρ z) = Real.sqrt n * l2 n z := by
  rw [l2, l2, ← Real.sqrt_mul (by positivity)]
  congr 1
  have key : ∑ k ∈ range n, dft n ρ z k * (starRingEnd ℂ) (dft n ρ z k) =
      (n : ℂ) * ∑ j ∈ range n, z j * (starRingEnd ℂ) (z j) := by
    have e1 : ∀ k ∈ range n, dft n ρ z k * (starRingEnd ℂ) (dft n ρ z k) =
        ∑ j ∈ range n, (starRingEnd ℂ) (z j) * (dft n ρ z k * (ρ k)⁻¹ ^ j) := by
      intro k hk
      conv_lhs => rw [show (starRingEnd ℂ) (dft n ρ z k) = ∑ j ∈ range n, (starRingEnd ℂ) (z j) * (ρ k)⁻¹ ^ j by
        rw [dft, map_sum]
        exact sum_congr rfl fun j _ => by rw [map_mul, map_pow, h.conj (mem_range.1 hk)]]
      rw [mul_sum]
      exact sum_congr rfl fun j _ => by ring
    rw [sum_congr rfl e1, sum_comm, mul_sum]
    refine sum_congr rfl fun j hj => ?_
    rw [← mul_sum]
    have := h.idft_dft z (mem_range.1 hj)
    rw [idft] at this
    rw [this]
    ring
  have e2 : ∀ x : ℂ, x * (starRingEnd ℂ) x = ((‖x‖ ^ 2 : ℝ) : ℂ) := by
    intro x
    rw [Complex.mul_conj, Complex.normSq_eq_norm_sq]
  simp only [e2] at key
  exact_mod_cast key

theorem dft_sub (z y : ℕ → ℂ) (k : ℕ) : dft n ρ (fun j => z j - y j) k = dft n ρ z k - dft n ρ y k := by
  simp only [dft, sub_mul, sum_sub_distrib]

theorem idft_sub (z y : ℕ → ℂ) (k : ℕ) : idft n ρ (fun j => z j - y j) k = idft n ρ z k - idft n ρ y k := by
  simp only [idft, sub_mul, sum_sub_distrib]

theorem Roots.idft_le (h : Roots n ρ) (f : ℕ → ℂ) (j : ℕ) : ‖idft n ρ f j‖ ≤ ∑ k ∈ range n, ‖f k‖ := by
  refine (norm_sum_le _ _).trans (sum_le_sum fun k hk => ?_)
  rw [norm_mul, norm_pow, norm_inv, h.norm (mem_range.1 hk), inv_one, one_pow, mul_one]

/-- Twice the same root would not do: the hypothesis is about all roots. -/
example : Roots 2 (fun k => if k = 0 then 1 else -1) := by
  refine ⟨fun k _ => ?_, fun k k' hk hk' e => ?_⟩
  · beta_reduce; split <;> norm_num
  · have h1 : (1 : ℂ) ≠ -1 := by norm_num
    interval_cases k <;> interval_cases k' <;> simp_all

end Verif.Fft
