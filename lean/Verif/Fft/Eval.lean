import Verif.Fft.Dft
import Verif.Ntt.Switch
/-
Multiplication of polynomials modulo `X^N + 1` by the values at the roots of `X^n - i`, with `N = 2n`.
-/
namespace Verif.Fft
open Finset Verif.Poly Verif.Ntt Polynomial

/-- Value at `ω` of a list of integer coefficients. -/
noncomputable def evalAt (N : ℕ) (ω : ℂ) (p : List ℤ) : ℂ := ∑ j ∈ range N, (p.getD j 0 : ℂ) * ω ^ j

/-- The two halves of a polynomial as complex numbers, scaled and twisted. -/
noncomputable def pack (s : ℝ) (n : ℕ) (ξ : ℂ) (p : List ℤ) (j : ℕ) : ℂ :=
  s * ((p.getD j 0 : ℂ) + (p.getD (n + j) 0 : ℂ) * Complex.I) * ξ ^ j

theorem dft_pack {n : ℕ} {ρ : ℕ → ℂ} (h : Roots n ρ) (s : ℝ) (ξ : ℂ) (hξ : ξ ^ n = Complex.I) (p : List ℤ) {k : ℕ}
    (hk : k < n) : dft n ρ (pack s n ξ p) k = s * evalAt (2 * n) (ξ * ρ k) p := by
  unfold dft evalAt pack
  rw [two_mul, sum_range_add, ← sum_add_distrib, mul_sum]
  refine sum_congr rfl fun j _ => ?_
  rw [pow_add, mul_pow ξ _ n, hξ, h.1 k hk, mul_pow]
  ring

/-- Evaluation as a ring morphism. -/
noncomputable def evalHom (N : ℕ) (ω : ℂ) (hω : ω ^ N = -1) : Rq ℤ N →+* ℂ :=
  AdjoinRoot.lift (Int.castRingHom ℂ) ω (by simp [hω])

theorem evalHom_toRq (N : ℕ) (ω : ℂ) (hω : ω ^ N = -1) (p : List ℤ) (hp : p.length = N) :
    evalHom N ω hω (toRq N p) = evalAt N ω p := by
  unfold evalHom toRq toPoly evalAt
  rw [AdjoinRoot.lift_mk, eval₂_finsetSum, hp]
  refine sum_congr rfl fun j _ => ?_
  rw [eval₂_mul, eval₂_C, eval₂_X_pow]
  rfl

theorem evalAt_convSum (N : ℕ) (hN : 0 < N) (ω : ℂ) (hω : ω ^ N = -1) (zs : List (List ℤ × List ℤ))
    (h : ∀ x ∈ zs, x.1.length = N ∧ x.2.length = N) :
    evalAt N ω ((List.range N).map (convSum N zs)) = (zs.map fun x => evalAt N ω x.1 * evalAt N ω x.2).sum := by
  rw [← evalHom_toRq N ω hω _ (by simp), toRq_convSum N hN zs h, map_list_sum, List.map_map]
  congr 1
  apply List.map_congr_left
  intro x hx
  obtain ⟨h1, h2⟩ := h x hx
  rw [Function.comp, map_mul, evalHom_toRq N ω hω _ h1, evalHom_toRq N ω hω _ h2]

/-- The inverse transform of the sum of the products of the transforms. -/
theorem idft_products {n : ℕ} (hn : 0 < n) {ρ : ℕ → ℂ} (h : Roots n ρ) (s : ℝ) (ξ : ℂ) (hξ : ξ ^ n = Complex.I)
    (zs : List (List ℤ × List ℤ)) (hz : ∀ x ∈ zs, x.1.length = 2 * n ∧ x.2.length = 2 * n) {j : ℕ} (hj : j < n) :
    idft n ρ (fun k => (zs.map fun x => dft n ρ (pack s n ξ x.1) k * dft n ρ (pack 1 n ξ x.2) k).sum) j =
      n * (s * (((convSum (2 * n) zs j : ℤ) : ℂ) + ((convSum (2 * n) zs (n + j) : ℤ) : ℂ) * Complex.I) * ξ ^ j) := by
  have e : ∀ k, k < n → (zs.map fun x => dft n ρ (pack s n ξ x.1) k * dft n ρ (pack 1 n ξ x.2) k).sum =
      dft n ρ (pack s n ξ ((List.range (2 * n)).map (convSum (2 * n) zs))) k := by
    intro k hk
    have hω : (ξ * ρ k) ^ (2 * n) = -1 := by
      rw [mul_comm 2 n, pow_mul, mul_pow, hξ, h.1 k hk, mul_one, Complex.I_sq]
    rw [dft_pack h s ξ hξ _ hk, evalAt_convSum (2 * n) (by omega) _ hω zs hz]
    simp only [dft_pack h _ ξ hξ _ hk, Complex.ofReal_one, one_mul]
    rw [← List.sum_map_mul_left]
    congr 1
    apply List.map_congr_left
    intro x _
    ring
  have e2 : idft n ρ (fun k => (zs.map fun x => dft n ρ (pack s n ξ x.1) k * dft n ρ (pack 1 n ξ x.2) k).sum) j =
      idft n ρ (dft n ρ (pack s n ξ ((List.range (2 * n)).map (convSum (2 * n) zs)))) j := by
    unfold idft
    exact sum_congr rfl fun k hk => by beta_reduce; rw [e k (mem_range.1 hk)]
  rw [e2, h.idft_dft _ hj]
  unfold pack
  rw [List.getD_eq_getElem?_getD, List.getD_eq_getElem?_getD, List.getElem?_map, List.getElem?_map,
    List.getElem?_range (by omega), List.getElem?_range (by omega)]
  rfl

end Verif.Fft
