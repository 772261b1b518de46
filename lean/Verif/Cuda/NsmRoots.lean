import Verif.Cuda.NsmExact
import Verif.Cuda.NsmTable
import Verif.Fft.Dft
import Verif.Fft.Spec
import Mathlib.Analysis.SpecialFunctions.Trigonometric.Basic
/-
The twiddle factors of the Fourier transform of the GPU: the exact ones, and the table.
-/
namespace Verif.Cuda.Nsm
open Finset

/-- The argument of twiddle factor `h`. -/
noncomputable def ang (h : Nat) : ℝ :=
  if h ≤ 1 then Real.pi / 4 else ang (h / 2) / 2 + if h % 2 = 0 then 0 else Real.pi / 2
  termination_by h

/-- The exact twiddle factors: those of `2 h` and `2 h + 1` are square roots of that of `h` and of its opposite. -/
noncomputable def rootW (h : Nat) : ℂ := Complex.exp ((ang h : ℝ) * Complex.I)

/-- A literal of the table as a complex number. -/
noncomputable def litVal (h : Nat) : ℂ :=
  ⟨((negtwiddles.getD h (0, 0)).1 : ℝ) / 10 ^ 33, ((negtwiddles.getD h (0, 0)).2 : ℝ) / 10 ^ 33⟩

theorem ang_one : ang 1 = Real.pi / 4 := by rw [ang, if_pos le_rfl]

theorem ang_even {h : Nat} (h0 : 0 < h) : ang (2 * h) = ang h / 2 := by
  rw [ang, if_neg (by omega), if_pos (by omega), show 2 * h / 2 = h by omega, add_zero]

theorem ang_odd {h : Nat} (h0 : 0 < h) : ang (2 * h + 1) = ang h / 2 + Real.pi / 2 := by
  rw [ang, if_neg (by omega), if_neg (by omega), show (2 * h + 1) / 2 = h by omega]

theorem ang_range (h : Nat) : 0 < ang h ∧ ang h < Real.pi := by
  induction h using Nat.strong_induction_on with
  | _ h ih =>
    have hp := Real.pi_pos
    rw [ang]
    split
    · constructor <;> linarith
    · have := ih (h / 2) (by omega)
      split <;> constructor <;> linarith [this.1, this.2]

theorem rootW_norm (h : Nat) : ‖rootW h‖ = 1 := Complex.norm_exp_ofReal_mul_I _

theorem rootW_even {h : Nat} (h0 : 0 < h) : rootW (2 * h) ^ 2 = rootW h := by
  rw [rootW, rootW, ← Complex.exp_nat_mul, ang_even h0]
  congr 1; push_cast; ring

theorem rootW_odd {h : Nat} (h0 : 0 < h) : rootW (2 * h + 1) = Complex.I * rootW (2 * h) := by
  rw [rootW, rootW, ang_odd h0, ang_even h0, Complex.ofReal_add, add_mul, Complex.exp_add, mul_comm]
  congr 1
  push_cast
  exact Complex.exp_pi_div_two_mul_I

theorem rootW_one : rootW 1 ^ 2 = Complex.I := by
  rw [rootW, ← Complex.exp_nat_mul, ang_one]
  refine Eq.trans ?_ Complex.exp_pi_div_two_mul_I
  congr 1; push_cast; ring

/-- The squares of the twiddle factors are the points. -/
theorem rootW_sq (h : Nat) (h0 : 0 < h) : rootW h ^ 2 = pts Complex.I rootW h := by
  obtain ⟨q, hq | hq⟩ : ∃ q, h = 2 * q ∨ h = 2 * q + 1 := ⟨h / 2, by omega⟩
  · subst hq
    rw [pts_even _ _ (by omega), rootW_even (by omega)]
  · subst hq
    rcases Nat.eq_zero_or_pos q with rfl | hq
    · rw [pts, if_pos (by omega)]; exact rootW_one
    · rw [pts_odd _ _ hq, rootW_odd hq, mul_pow, Complex.I_sq, rootW_even hq]; ring

/-- The points at which the transform of size `n` evaluates. -/
noncomputable def point (n p : Nat) : ℂ := pts Complex.I rootW (n + p)

theorem point_pow (K p : Nat) (hp : p < 2 ^ K) : point (2 ^ K) p ^ 2 ^ K = Complex.I := by
  have h := pts_pow (I := Complex.I) (W := rootW) (K := K) (fun h h0 _ => rootW_sq h h0) K le_rfl 0 (by simp) p hp
  rw [Nat.mul_zero, Nat.zero_add, Nat.sub_self] at h
  rw [point, h, pts, if_pos (by simp)]

theorem point_norm (K p : Nat) (hp : p < 2 ^ K) : ‖point (2 ^ K) p‖ = 1 := by
  have h := congrArg norm (point_pow K p hp)
  rw [norm_pow, Complex.norm_I] at h
  exact (pow_eq_one_iff_of_nonneg (norm_nonneg _) (Nat.two_pow_pos K).ne').1 h

theorem pts_inj : ∀ (K : Nat) (p q : Nat), p < 2 ^ K → q < 2 ^ K →
    pts Complex.I rootW (2 ^ K + p) = pts Complex.I rootW (2 ^ K + q) → p = q := by
  intro K
  induction K with
  | zero => intro p q hp hq _; simp at hp hq; omega
  | succ K ih =>
    intro p q hp hq h
    have e : 2 ^ (K + 1) = 2 * 2 ^ K := by rw [Nat.pow_succ']
    have hK := Nat.two_pow_pos K
    rw [e] at h hp hq
    have par : ∀ p, pts Complex.I rootW (2 * 2 ^ K + p) ^ 2 = pts Complex.I rootW (2 ^ K + p / 2) := by
      intro p
      obtain ⟨r, hr | hr⟩ : ∃ r, p = 2 * r ∨ p = 2 * r + 1 := ⟨p / 2, by omega⟩
      · rw [hr, ← Nat.mul_add, pts_even _ _ (by omega), show 2 * r / 2 = r by omega, rootW_sq _ (by omega)]
      · rw [hr, ← Nat.add_assoc, ← Nat.mul_add, pts_odd _ _ (by omega), show (2 * r + 1) / 2 = r by omega, neg_sq,
          rootW_sq _ (by omega)]
    have h2 := congrArg (· ^ 2) h
    simp only [par] at h2
    have h3 := ih _ _ (by omega) (by omega) h2
    by_contra hne
    have hW : ∀ h, rootW h ≠ 0 := fun h h0 => by have := rootW_norm h; rw [h0, norm_zero] at this; norm_num at this
    have hz : ∀ x : ℂ, x ≠ 0 → x ≠ -x := fun x hx h => hx (self_eq_neg.1 h)
    obtain ⟨r, hr⟩ : ∃ r, (p = 2 * r ∧ q = 2 * r + 1) ∨ (q = 2 * r ∧ p = 2 * r + 1) := ⟨p / 2, by omega⟩
    rcases hr with ⟨rfl, rfl⟩ | ⟨rfl, rfl⟩
    · rw [← Nat.add_assoc, ← Nat.mul_add, pts_even _ _ (by omega), pts_odd _ _ (by omega)] at h
      exact hz _ (hW _) h
    · rw [← Nat.add_assoc, ← Nat.mul_add, pts_even _ _ (by omega), pts_odd _ _ (by omega)] at h
      exact hz _ (hW _) h.symm

open Verif.Fft

theorem xi_pow (K : Nat) : xi (2 ^ K) ^ 2 ^ K = Complex.I := by
  rw [xi, ← Complex.exp_nat_mul]
  refine Eq.trans ?_ Complex.exp_pi_div_two_mul_I
  congr 1
  push_cast
  have : (2 : ℂ) ^ K ≠ 0 := pow_ne_zero _ two_ne_zero
  field_simp

theorem xi_norm (n : Nat) : ‖xi n‖ = 1 := Complex.norm_exp_ofReal_mul_I _

theorem xi_ne (n : Nat) : xi n ≠ 0 := Complex.exp_ne_zero _

/-- The points without the twist. -/
noncomputable def rho (n p : Nat) : ℂ := point n p / xi n

theorem rho_roots (K : Nat) : Roots (2 ^ K) (rho (2 ^ K)) := by
  refine ⟨fun p hp => ?_, fun p q hp hq h => ?_⟩
  · rw [rho, div_pow, point_pow K p hp, xi_pow, div_self Complex.I_ne_zero]
  · rw [rho, rho, div_left_inj' (xi_ne _)] at h
    exact pts_inj K p q hp hq h

/-- The arithmetic of bnsmfft.cuh on real numbers, part by part. bnsmfft.cuh:48-55 (the literal of lines 49-50 is half
the root of two up to its last digit), 76-82, 110-111 and 128-134. Simplified: no rounding. -/
noncomputable def cOps (n : Nat) : Ops ℂ where
  first _ a b :=
    let v : ℂ := ⟨(b.re - b.im) * (√2 / 2), (b.re + b.im) * (√2 / 2)⟩
    (⟨a.re + v.re, a.im + v.im⟩, ⟨a.re - v.re, a.im - v.im⟩)
  fwd _ _ w a b :=
    let v : ℂ := ⟨b.re * w.re - b.im * w.im, b.im * w.re + b.re * w.im⟩
    (⟨a.re + v.re, a.im + v.im⟩, ⟨a.re - v.re, a.im - v.im⟩)
  inv _ _ w a b :=
    let u : ℂ := ⟨a.re - b.re, a.im - b.im⟩
    (⟨a.re + b.re, a.im + b.im⟩, ⟨u.re * w.re + u.im * w.im, u.im * w.re - u.re * w.im⟩)
  scale _ _ a := ⟨a.re * (1 / n), a.im * (1 / n)⟩

theorem rootW_one_val : rootW 1 = ⟨√2 / 2, √2 / 2⟩ := by
  rw [rootW, ang_one, Complex.exp_mul_I, ← Complex.ofReal_cos, ← Complex.ofReal_sin, Real.cos_pi_div_four,
    Real.sin_pi_div_four]
  apply Complex.ext <;> simp

theorem cOps_eq (n : Nat) : cOps n = exactOps (rootW 1) (starRingEnd ℂ) ((n : ℂ)⁻¹) := by
  rw [rootW_one_val, cOps, exactOps]
  congr 1
  · funext _ a b
    refine Prod.ext (Complex.ext ?_ ?_) (Complex.ext ?_ ?_) <;> simp <;> ring
  · funext _ _ w a b
    refine Prod.ext (Complex.ext ?_ ?_) (Complex.ext ?_ ?_) <;> simp <;> ring
  · funext _ _ w a b
    refine Prod.ext (Complex.ext ?_ ?_) (Complex.ext ?_ ?_) <;> simp <;> ring
  · funext _ _ a
    have e : ((n : ℂ)⁻¹) = (((n : ℝ)⁻¹ : ℝ) : ℂ) := by push_cast; rfl
    rw [e]
    refine Complex.ext ?_ ?_ <;> simp

theorem direct_dft (K : Nat) (a : Nat → ℂ) (p : Nat) (hp : p < 2 ^ (K + 1)) :
    direct (cOps (2 ^ (K + 1))) rootW (2 ^ (K + 1)) a p =
      dft (2 ^ (K + 1)) (rho (2 ^ (K + 1))) (fun j => a j * xi (2 ^ (K + 1)) ^ j) p := by
  rw [cOps_eq, direct_exact Complex.I rootW _ _ K (fun h h0 _ => rootW_sq h h0) a p hp, dft]
  refine sum_congr rfl fun j _ => ?_
  rw [mul_assoc, ← mul_pow, rho, mul_div_cancel₀ _ (xi_ne _)]; rfl

theorem inverse_idft (K : Nat) (z : Nat → ℂ) (j : Nat) (hj : j < 2 ^ K) :
    inverse (cOps (2 ^ K)) rootW (2 ^ K) z j =
      (xi (2 ^ K))⁻¹ ^ j * idft (2 ^ K) (rho (2 ^ K)) z j / (2 ^ K : ℕ) := by
  rw [cOps_eq, inverse_exact Complex.I rootW (starRingEnd ℂ) _ _ K (fun h h0 _ => rootW_sq h h0) z j hj, idft, mul_sum, sum_div]
  refine sum_congr rfl fun p hp => ?_
  have hp := mem_range.1 hp
  have hn := point_norm K p hp
  have hc : (starRingEnd ℂ) (pts Complex.I rootW (2 ^ K + p)) = (xi (2 ^ K))⁻¹ * (rho (2 ^ K) p)⁻¹ := by
    rw [rho, inv_div, ← mul_div_assoc, inv_mul_cancel₀ (xi_ne _), one_div]
    show (starRingEnd ℂ) (point (2 ^ K) p) = _
    rw [Complex.inv_def, Complex.normSq_eq_norm_sq, hn]; simp
  rw [hc, mul_pow, div_eq_mul_inv]; ring

/-- The table: entries `a` and `b` are a square root of entry `p`, and this square root times `i`, up to rounding. -/
def goodPair (p a b : Int × Int) : Bool :=
  decide (0 ≤ a.1 ∧ 0 ≤ a.2 ∧ b.1 = -a.2 ∧ b.2 = a.1 ∧ a.1 ≤ 10 ^ 33 ∧ a.2 ≤ 10 ^ 33 ∧
    |a.1 * a.1 - a.2 * a.2 - p.1 * 10 ^ 33| ≤ 210000000000000000 * 10 ^ 33 ∧
    |2 * (a.1 * a.2) - p.2 * 10 ^ 33| ≤ 210000000000000000 * 10 ^ 33)

def goodPairs : List (Int × Int) → List (Int × Int) → Bool
  | p :: ps, a :: b :: cs => goodPair p a b && goodPairs ps cs
  | _, [] => true
  | _, _ => false

theorem goodPairs_get : ∀ (ps cs : List (Int × Int)), goodPairs ps cs = true → ∀ i, 2 * i + 1 < cs.length →
    goodPair (ps.getD i (0, 0)) (cs.getD (2 * i) (0, 0)) (cs.getD (2 * i + 1) (0, 0)) = true
  | _, [], _, i, hi => by simp at hi
  | [], [_], _, i, hi => by simp at hi
  | [], _ :: _ :: _, h, _, _ => by simp [goodPairs] at h
  | _ :: _, [_], h, i, hi => by simp at hi
  | p :: ps, a :: b :: cs, h, i, hi => by
    rw [goodPairs, Bool.and_eq_true] at h
    cases i with
    | zero => exact h.1
    | succ i =>
      have := goodPairs_get ps cs h.2 i (by simp only [List.length_cons] at hi; omega)
      rw [show 2 * (i + 1) = 2 * i + 1 + 1 by ring]
      simpa only [List.getD_cons_succ] using this

theorem table_good : goodPairs (negtwiddles.drop 1) (negtwiddles.drop 2) = true := by decide +kernel

theorem table_first : negtwiddles.length = 4096 ∧
    goodPair (0, 10 ^ 33) (negtwiddles.getD 1 (0, 0)) (-(negtwiddles.getD 1 (0, 0)).2, (negtwiddles.getD 1 (0, 0)).1) = true := by
  decide +kernel

end Verif.Cuda.Nsm
