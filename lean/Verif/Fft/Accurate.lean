import Verif.Fft.Error
import Verif.Fft.Eval
import Verif.Ntt.Accurate
/-
The Fourier transform computes sums of products of polynomials with a bounded error.
-/
namespace Verif.Fft
open Verif.Float Verif.Encode Finset Verif.Poly Verif.Ntt Verif.BV

variable {w : ℕ}

theorem getD_toInt (p : List (BitVec w)) (j : ℕ) : (p.map BitVec.toInt).getD j 0 = (p.getD j 0).toInt := by
  rw [List.getD_eq_getElem?_getD, List.getD_eq_getElem?_getD, List.getElem?_map]
  cases p[j]? <;> simp

theorem pack_eq (s : ℝ) (n : ℕ) (ξ : ℂ) (p : List (BitVec w)) (j : ℕ) :
    pack s n ξ (p.map BitVec.toInt) j = packed s (p.getD j 0) (p.getD (n + j) 0) * ξ ^ j := by
  unfold pack packed
  rw [getD_toInt, getD_toInt]

theorem getD_take {p : List (BitVec w)} {n j : ℕ} (hj : j < n) : (p.take n).getD j 0 = p.getD j 0 := by
  rw [List.getD_eq_getElem?_getD, List.getD_eq_getElem?_getD, List.getElem?_take, if_pos hj]

theorem getD_drop {p : List (BitVec w)} {n j : ℕ} : (p.drop n).getD j 0 = p.getD (n + j) 0 := by
  rw [List.getD_eq_getElem?_getD, List.getD_eq_getElem?_getD, List.getElem?_drop]

theorem halves {p : List (BitVec w)} {n : ℕ} (hp : p.length = 2 * n) :
    p.length / 2 = n ∧ (p.take n).length = n ∧ (p.drop n).length = n := by
  refine ⟨by omega, by rw [List.length_take]; omega, by rw [List.length_drop]; omega⟩

theorem norm_xi_pow (n j : ℕ) : ‖xi n ^ j‖ = 1 := by rw [norm_pow, norm_xi, one_pow]

/-- The forward clause of `PlanAccurate`. -/
def FwdOk (n : ℕ) (plan : Plan) (ρ : ℕ → ℂ) (ε : ℝ) : Prop :=
  ∀ zs : List C64, zs.length = n → Bounded zs →
      (plan.fwd zs).length = n ∧ (∀ z ∈ plan.fwd zs, z.Finite) ∧
      l2 n (fun k => vals (plan.fwd zs) k - dft n ρ (vals zs) k) ≤ ε * (Real.sqrt n * l2 n (vals zs)) + tiny

/-- What is known of the constants. -/
structure Consts (n : ℕ) (ε κ : ℝ) : Prop where
  n0 : 0 < n
  n40 : n ≤ 2 ^ 40
  eps0 : 0 ≤ ε
  eps : ε ≤ κ
  gam : 2 * Fft.gam ≤ κ
  small : κ ≤ 1 / 100

theorem Consts.u {n : ℕ} {ε κ : ℝ} (h : Consts n ε κ) : 32 * u53 ≤ κ := by
  have := h.gam
  rw [gam_eq] at this
  linarith

theorem torus_fwd {n : ℕ} {plan : Plan} {ρ : ℕ → ℂ} {ε κ : ℝ} (hc : Consts n ε κ) (hρ : Roots n ρ)
    (hf : FwdOk n plan ρ ε) (hw : w ≤ 128) (tw : List C64) (ht : TwistAccurate n tw) (p : List (BitVec w))
    (hp : p.length = 2 * n) :
    FwdOut n κ 1 (forwardAsTorus plan tw p) (dft n ρ (pack (1 / 2 ^ w) n (xi n) (p.map BitVec.toInt))) := by
  obtain ⟨h1, h2, h3⟩ := halves hp
  have hu := hc.u
  have hu0 := u53_pos
  unfold forwardAsTorus
  rw [h1, forwardTorus_eq n _ _ tw h2 h3 ht.1]
  have key := fun j (hj : j < n) => torusElt_err (p.getD j 0) (p.getD (n + j) 0) hw (at' tw j) (xi n ^ j)
    (norm_xi_pow n j) (ht.2 j hj).1 (ht.2 j hj).2
  refine forward_err hc.n0 hρ hf hc.eps0 hc.eps hc.small (by linarith) le_rfl (one_le_pow₀ (by norm_num)) _ (by simp)
    ?_ _ ?_ ?_
  · intro j hj
    rw [at_map _ hj, getD_take hj, getD_drop]
    exact (key j hj).1
  · intro j hj
    rw [pack_eq, norm_mul, norm_xi_pow, mul_one]
    exact (key j hj).2.2
  · intro j hj
    rw [vals, at_map _ hj, getD_take hj, getD_drop, pack_eq]
    refine (key j hj).2.1.trans ?_
    linarith [hc.gam]

theorem forwardInteger_eq (c : Cpu) (n : ℕ) (h8 : 8 ∣ n) (re im : List (BitVec w)) (tw : List C64) (hr : re.length = n)
    (hi : im.length = n) (ht : tw.length = n) :
    ∃ fused : Bool, convertForwardInteger c re im tw = (List.range n).map fun j =>
      if fused then mulFused (ofSigned (re.getD j 0)) (ofSigned (im.getD j 0)) (at' tw j)
      else integerElt (re.getD j 0) (im.getD j 0) (at' tw j) := by
  have h4 : 4 ∣ n := (by norm_num : 4 ∣ 8).trans h8
  unfold convertForwardInteger
  split
  · exact ⟨false, by rw [forwardIntegerScalar_eq n re im tw hr hi ht]; rfl⟩
  · exact ⟨true, by rw [forwardIntegerFma_eq n h4 re im tw hr hi ht]; rfl⟩
  · exact ⟨true, by rw [forwardIntegerAvx512_eq n h8 re im tw hr hi ht]; rfl⟩

theorem digit_fwd {n : ℕ} {plan : Plan} {ρ : ℕ → ℂ} {ε κ : ℝ} (hc : Consts n ε κ) (hρ : Roots n ρ)
    (hf : FwdOk n plan ρ ε) (hw : w ≤ 128) (c : Cpu) (h8 : 8 ∣ n) (tw : List C64) (ht : TwistAccurate n tw)
    (p : List (BitVec w)) (hp : p.length = 2 * n) (D : ℝ) (hD : 1 ≤ D) (hD2 : D ≤ 2 ^ 90)
    (hpD : ∀ j, j < 2 * n → |((p.getD j 0).toInt : ℝ)| ≤ D) :
    FwdOut n κ (2 * D) (forwardAsInteger c plan tw p) (dft n ρ (pack 1 n (xi n) (p.map BitVec.toInt))) := by
  obtain ⟨h1, h2, h3⟩ := halves hp
  have hu := hc.u
  have hu0 := u53_pos
  unfold forwardAsInteger
  rw [h1]
  obtain ⟨fused, e⟩ := forwardInteger_eq c n h8 _ _ tw h2 h3 ht.1
  rw [e]
  have key := fun j (hj : j < n) => digit_err (p.getD j 0) (p.getD (n + j) 0) hw D hD hD2 (hpD j (by omega))
    (hpD (n + j) (by omega)) (at' tw j) (xi n ^ j) (norm_xi_pow n j) (ht.2 j hj).1 (ht.2 j hj).2 fused
  have h100 : 2 * D ≤ 2 ^ 100 := by
    have : (2 : ℝ) * 2 ^ 90 ≤ 2 ^ 100 := by norm_num
    linarith
  refine forward_err hc.n0 hρ hf hc.eps0 hc.eps hc.small (by linarith) (by linarith) h100 _ (by simp) ?_ _ ?_ ?_
  · intro j hj
    rw [at_map _ hj, getD_take hj, getD_drop]
    exact (key j hj).1
  · intro j hj
    rw [pack_eq, norm_mul, norm_xi_pow, mul_one]
    exact (key j hj).2.2
  · intro j hj
    rw [vals, at_map _ hj, getD_take hj, getD_drop, pack_eq]
    refine (key j hj).2.1.trans ?_
    exact mul_le_mul_of_nonneg_right hc.gam (by linarith)

/-- The inverse clause of `PlanAccurate`. -/
def InvOk (n : ℕ) (plan : Plan) (ρ : ℕ → ℂ) (ε : ℝ) : Prop :=
  ∀ zs : List C64, zs.length = n → Bounded zs →
      (plan.inv zs).length = n ∧ (∀ z ∈ plan.inv zs, z.Finite) ∧
      ∀ j, j < n → ‖vals (plan.inv zs) j - idft n ρ (vals zs) j‖ ≤ ε * ∑ k ∈ range n, ‖vals zs k‖ + tiny

/-- The inverse transform of an approximate sum of products. -/
theorem inverse_err {n : ℕ} {plan : Plan} {ρ : ℕ → ℂ} {ε κ Q : ℝ} (hc : Consts n ε κ) (hρ : Roots n ρ)
    (hi : InvOk n plan ρ ε) (hQ : 1 ≤ Q) (hQ2 : Q ≤ 2 ^ 199) (o : List C64) (ho : o.length = n)
    (fo : ∀ k, k < n → (at' o k).Finite) (S : ℕ → ℂ) (hS : ∑ k ∈ range n, ‖S k‖ ≤ Q)
    (hoS : ∑ k ∈ range n, ‖vals o k - S k‖ ≤ 8 * κ * Q) :
    (plan.inv o).length = n ∧ (∀ k, k < n → (at' (plan.inv o) k).Finite) ∧
      ∀ j, j < n → ‖vals (plan.inv o) j - idft n ρ S j‖ ≤ 10 * κ * Q ∧ ‖idft n ρ S j‖ ≤ Q := by
  have hκ0 : 0 ≤ κ := hc.eps0.trans hc.eps
  have hκ := hc.small
  have hu := hc.u
  have ht := tiny_le_u
  have hu0 := u53_pos
  have hκQ : 0 ≤ κ * Q := mul_nonneg hκ0 (by linarith)
  have hκκQ : κ * (κ * Q) ≤ 1 / 100 * (κ * Q) := mul_le_mul_of_nonneg_right hκ hκQ
  have hκQ2 : κ * Q ≤ 1 / 100 * Q := mul_le_mul_of_nonneg_right hκ (by linarith)
  have hκ1 : κ * 1 ≤ κ * Q := mul_le_mul_of_nonneg_left hQ hκ0
  have hsum : ∑ k ∈ range n, ‖vals o k‖ ≤ (1 + 8 * κ) * Q := by
    have h1 : ∀ k ∈ range n, ‖vals o k‖ ≤ ‖vals o k - S k‖ + ‖S k‖ := by
      intro k _
      have := norm_add_le (vals o k - S k) (S k)
      rwa [sub_add_cancel] at this
    refine (sum_le_sum h1).trans ?_
    rw [sum_add_distrib]
    nlinarith
  have hb : Bounded o := by
    rw [Bounded, mem_at ho]
    intro k hk
    refine ⟨fo k hk, ?_⟩
    have h1 : ‖vals o k‖ ≤ ∑ k ∈ range n, ‖vals o k‖ :=
      single_le_sum (f := fun k => ‖vals o k‖) (fun _ _ => norm_nonneg _) (mem_range.2 hk)
    have h2 : (2 : ℝ) ^ 199 + 2 ^ 199 = 2 ^ 200 := pow_double 199
    change ‖vals o k‖ ≤ 2 ^ 200
    generalize (2 : ℝ) ^ 199 = A at *
    generalize (2 : ℝ) ^ 200 = B at *
    nlinarith
  clear hQ2
  obtain ⟨i1, i2, i3⟩ := hi o ho hb
  refine ⟨i1, (mem_at i1).1 i2, fun j hj => ⟨?_, ?_⟩⟩
  · have h1 := i3 j hj
    have h2 : ‖idft n ρ (vals o) j - idft n ρ S j‖ ≤ 8 * κ * Q := by
      rw [← idft_sub]
      exact (hρ.idft_le _ j).trans hoS
    have h3 := norm_add_le (vals (plan.inv o) j - idft n ρ (vals o) j) (idft n ρ (vals o) j - idft n ρ S j)
    rw [sub_add_sub_cancel] at h3
    have h4 : ε * ∑ k ∈ range n, ‖vals o k‖ ≤ κ * ((1 + 8 * κ) * Q) :=
      mul_le_mul hc.eps hsum (sum_nonneg fun _ _ => norm_nonneg _) hκ0
    nlinarith
  · exact (hρ.idft_le _ j).trans hS

/-- The last product, by the conjugate of the twisting factor divided by the size. -/
theorem back_err {n : ℕ} {ε κ Q : ℝ} (hc : Consts n ε κ) (hQ : 1 ≤ Q) (hQ2 : Q ≤ 2 ^ 199) (z t : C64) (Y T : ℂ)
    (hz : z.Finite) (ht : t.Finite) (hT : ‖T‖ = 1) (htT : ‖t.val - T‖ ≤ gam) (hzY : ‖z.val - n * (Y * T)‖ ≤ 10 * κ * Q)
    (hY : ‖n * (Y * T)‖ ≤ Q) :
    Close (backElt n z t) Y (13 * κ * Q / n) ∧ Close (backFused n z t) Y (13 * κ * Q / n) := by
  obtain ⟨W, fW, hW1, hW2, hW⟩ := weight_err hc.n0 hc.n40 t T hT ht htT
  have hκ0 : 0 ≤ κ := hc.eps0.trans hc.eps
  have hκ := hc.small
  have hu := hc.u
  have hg := hc.gam
  have hu0 := u53_pos
  have hN : (1 : ℝ) ≤ n := by exact_mod_cast hc.n0
  have hN0 : (0 : ℝ) < n := by linarith
  have hnC : (n : ℂ) ≠ 0 := by exact_mod_cast hc.n0.ne'
  have hn40 : (n : ℝ) ≤ 2 ^ 40 := by exact_mod_cast hc.n40
  have htn := tiny_n (n := n) (hn40.trans (pow_mono (by norm_num)))
  clear hn40
  have hκQ : 0 ≤ κ * Q := mul_nonneg hκ0 (by linarith)
  have hκQ2 : κ * Q ≤ 1 / 100 * Q := mul_le_mul_of_nonneg_right hκ (by linarith)
  have hzb : ‖z.val‖ ≤ 1.1 * Q := by
    have := norm_add_le (z.val - n * (Y * T)) (n * (Y * T))
    rw [sub_add_cancel] at this
    linarith
  have hWb : ‖W.val‖ ≤ 1.01 / n := by
    have := norm_add_le (W.val - (starRingEnd ℂ) T / n) ((starRingEnd ℂ) T / n)
    rw [sub_add_cancel] at this
    have h2 : ‖(starRingEnd ℂ) T / (n : ℂ)‖ = 1 / n := by
      rw [norm_div, Complex.norm_conj, hT, Complex.norm_natCast]
    rw [h2] at this
    have h3 : 2 * gam / n + 1 / n ≤ 1.01 / (n : ℝ) := by
      rw [← add_div]
      exact div_le_div_of_nonneg_right (by linarith) hN0.le
    linarith
  have hz400 : ‖z.val‖ ≤ 2 ^ 400 := by
    have h2 : (2 : ℝ) ^ 199 + 2 ^ 199 = 2 ^ 200 := pow_double 199
    have h3 : (2 : ℝ) ^ 200 ≤ 2 ^ 400 := pow_mono (by norm_num)
    generalize (2 : ℝ) ^ 199 = A at *
    generalize (2 : ℝ) ^ 200 = B at *
    generalize (2 : ℝ) ^ 400 = C at *
    linarith
  have hW400 : ‖W.val‖ ≤ 2 ^ 400 := by
    have h1 : (1.01 : ℝ) / n ≤ 1.01 := div_le_self (by norm_num) hN
    have h2 : (2 : ℝ) ^ 1 ≤ 2 ^ 400 := pow_mono (by norm_num)
    generalize (2 : ℝ) ^ 400 = C at *
    linarith
  have fin : ∀ x : C64, Close x (z.val * W.val) (6 * u53 * (‖z.val‖ * ‖W.val‖) + tiny / 8) → Close x Y (13 * κ * Q / n) := by
    clear hz400 hW400 hQ2
    intro x hx
    refine ⟨hx.1, ?_⟩
    have e : n * (Y * T) * ((starRingEnd ℂ) T / n) = Y := by
      have h1 : T * (starRingEnd ℂ) T = 1 := by
        rw [Complex.mul_conj, Complex.normSq_eq_norm_sq, hT]
        simp
      rw [show n * (Y * T) * ((starRingEnd ℂ) T / n) = Y * (T * (starRingEnd ℂ) T) * (n / n) by ring, h1, div_self hnC]
      ring
    have hm := mul_approx hx.2 hzY hW hY hWb (by nlinarith)
    rw [e] at hm
    refine hm.trans ?_
    have h1 : ‖z.val‖ * ‖W.val‖ ≤ 1.1 * Q * (1.01 / n) := mul_le_mul hzb hWb (norm_nonneg _) (by linarith)
    have h2 : 6 * u53 * (‖z.val‖ * ‖W.val‖) ≤ κ * (1.1 * Q * (1.01 / n)) :=
      mul_le_mul (by linarith) h1 (mul_nonneg (norm_nonneg _) (norm_nonneg _)) hκ0
    have h3 : tiny / 8 ≤ 0.1 * κ * Q / n := by
      rw [le_div_iff₀ hN0]
      have : κ * 1 ≤ κ * Q := mul_le_mul_of_nonneg_left hQ hκ0
      linarith
    have h4 : Q * (2 * gam / n) ≤ Q * (κ / n) :=
      mul_le_mul_of_nonneg_left (div_le_div_of_nonneg_right hg hN0.le) (by linarith)
    have e1 : κ * (1.1 * Q * (1.01 / n)) = 1.111 * (κ * Q / n) := by ring
    have e2 : 10 * κ * Q * (1.01 / n) = 10.1 * (κ * Q / n) := by ring
    have e3 : Q * (κ / n) = κ * Q / n := by ring
    have e4 : 0.1 * κ * Q / n = 0.1 * (κ * Q / n) := by ring
    have e5 : 13 * κ * Q / n = 13 * (κ * Q / n) := by ring
    have e6 : 0 ≤ κ * Q / n := div_nonneg hκQ hN0.le
    linarith
  constructor
  · apply fin
    unfold backElt
    dsimp only
    rw [hW1]
    exact mul_err z W hz fW hz400 hW400
  · apply fin
    rw [hW2 z hz hz400]
    exact mulFused_err z W hz fW hz400 hW400

theorem close_parts {z : C64} {Y : ℂ} {e : ℝ} (h : Close z Y e) :
    ∃ p q : ℚ, z = ⟨.fin p, .fin q⟩ ∧ Rep p ∧ Rep q ∧ |(p : ℝ) - Y.re| ≤ e ∧ |(q : ℝ) - Y.im| ≤ e := by
  obtain ⟨⟨p, q, rfl, hp, hq⟩, h2⟩ := h
  obtain ⟨h3, h4⟩ := parts_le _ _ h2
  exact ⟨p, q, rfl, hp, hq, h3, h4⟩

theorem near_real {x : BitVec w} {q d : ℚ} {y e : ℝ} (h : Near w x q d) (hd : d ≤ 3 / 2) (hy : |(q : ℝ) - y| ≤ e) :
    ∃ K : ℤ, x = (K : BitVec w) ∧ |(K : ℝ) - 2 ^ w * y| ≤ 2 ^ w * e + 3 / 2 := by
  obtain ⟨K, h1, h2⟩ := h
  refine ⟨K, h1, ?_⟩
  have h3 : |(K : ℝ) - 2 ^ w * (q : ℝ)| ≤ 3 / 2 := by
    have h0 : ((|(K : ℚ) - 2 ^ w * q| : ℚ) : ℝ) ≤ ((3 / 2 : ℚ) : ℝ) := Rat.cast_le.mpr (h2.trans hd)
    push_cast at h0
    exact h0
  have hp : (0 : ℝ) ≤ 2 ^ w := by positivity
  have h4 : |2 ^ w * (q : ℝ) - 2 ^ w * y| ≤ 2 ^ w * e := by
    rw [← mul_sub, abs_mul, abs_of_nonneg hp]
    exact mul_le_mul_of_nonneg_left hy hp
  have := abs_add_le ((K : ℝ) - 2 ^ w * (q : ℝ)) (2 ^ w * (q : ℝ) - 2 ^ w * y)
  rw [sub_add_sub_cancel] at this
  linarith

/-- The sign with which the products are added: the 64-bit AVX-512 version subtracts them. -/
def backSign (w : ℕ) (c : Cpu) : ℤ := if w = 64 ∧ backwardIsa 64 c = .avx512 then -1 else 1

theorem backSign_eq_one {c : Cpu} (h : w = 64 → backwardIsa 64 c ≠ .avx512) : backSign w c = 1 := by
  rw [backSign, if_neg]
  rintro ⟨h1, h2⟩
  exact h h1 h2

theorem backSign_abs (c : Cpu) : |backSign w c| = 1 := by
  unfold backSign
  split <;> simp

/-- The polynomial added to the output. -/
theorem addBackward_eq (c : Cpu) (n : ℕ) (h8 : 8 ∣ n) (hw : w = 32 ∨ w = 64) (tw b : List C64) (re im : List (BitVec w)) (ht : tw.length = n)
    (hb : b.length = n) (hr : re.length = n) (hi : im.length = n) (Y : ℕ → ℂ) (e : ℝ)
    (hY : ∀ j, j < n → Close (backElt n (at' b j) (at' tw j)) (Y j) e ∧ Close (backFused n (at' b j) (at' tw j)) (Y j) e) :
    ∃ K L : ℕ → ℤ, (∀ j, j < n → |(K j : ℝ) - 2 ^ w * (Y j).re| ≤ 2 ^ w * e + 3 / 2 ∧
        |(L j : ℝ) - 2 ^ w * (Y j).im| ≤ 2 ^ w * e + 3 / 2) ∧
      convertAddBackwardTorus c re im b tw =
        ((List.range n).map fun j => re.getD j 0 + ((backSign w c * K j : ℤ) : BitVec w),
         (List.range n).map fun j => im.getD j 0 + ((backSign w c * L j : ℤ) : BitVec w)) := by
  have h4 : 4 ∣ n := (by norm_num : 4 ∣ 8).trans h8
  -- it is enough to convert each element
  have fin : ∀ X X' : ℕ → BitVec w,
      convertAddBackwardTorus c re im b tw =
        ((List.range n).map fun j => re.getD j 0 + X j, (List.range n).map fun j => im.getD j 0 + X' j) →
      (∀ j, j < n → (∃ K : ℤ, X j = ((backSign w c * K : ℤ) : BitVec w) ∧ |(K : ℝ) - 2 ^ w * (Y j).re| ≤ 2 ^ w * e + 3 / 2) ∧
        ∃ L : ℤ, X' j = ((backSign w c * L : ℤ) : BitVec w) ∧ |(L : ℝ) - 2 ^ w * (Y j).im| ≤ 2 ^ w * e + 3 / 2) →
      ∃ K L : ℕ → ℤ, (∀ j, j < n → |(K j : ℝ) - 2 ^ w * (Y j).re| ≤ 2 ^ w * e + 3 / 2 ∧
        |(L j : ℝ) - 2 ^ w * (Y j).im| ≤ 2 ^ w * e + 3 / 2) ∧
        convertAddBackwardTorus c re im b tw =
        ((List.range n).map fun j => re.getD j 0 + ((backSign w c * K j : ℤ) : BitVec w),
         (List.range n).map fun j => im.getD j 0 + ((backSign w c * L j : ℤ) : BitVec w)) := by
    intro X X' hX hK
    have hK' : ∀ j, ∃ K L : ℤ, j < n → (X j = ((backSign w c * K : ℤ) : BitVec w) ∧ |(K : ℝ) - 2 ^ w * (Y j).re| ≤ 2 ^ w * e + 3 / 2) ∧
        (X' j = ((backSign w c * L : ℤ) : BitVec w) ∧ |(L : ℝ) - 2 ^ w * (Y j).im| ≤ 2 ^ w * e + 3 / 2) := by
      intro j
      by_cases hj : j < n
      · obtain ⟨⟨K, hK⟩, L, hL⟩ := hK j hj
        exact ⟨K, L, fun _ => ⟨hK, hL⟩⟩
      · exact ⟨0, 0, fun h => absurd h hj⟩
    choose K L h using hK'
    refine ⟨K, L, fun j hj => ⟨(h j hj).1.2, (h j hj).2.2⟩, ?_⟩
    rw [hX, Prod.mk.injEq]
    constructor
    · apply List.map_congr_left
      intro j hj
      rw [(h j (List.mem_range.1 hj)).1.1]
    · apply List.map_congr_left
      intro j hj
      rw [(h j (List.mem_range.1 hj)).2.1]
  have fused : ∀ j, j < n →
      (∃ K : ℤ, cvtTorusFma w (fracFused w (backFused n (at' b j) (at' tw j)).re) = (K : BitVec w) ∧
        |(K : ℝ) - 2 ^ w * (Y j).re| ≤ 2 ^ w * e + 3 / 2) ∧
      ∃ L : ℤ, cvtTorusFma w (fracFused w (backFused n (at' b j) (at' tw j)).im) = (L : BitVec w) ∧
        |(L : ℝ) - 2 ^ w * (Y j).im| ≤ 2 ^ w * e + 3 / 2 := by
    intro j hj
    obtain ⟨p, q, hz, rp, rq, ep, eq⟩ := close_parts (hY j hj).2
    rw [hz]
    exact ⟨near_real (cvtTorusFma_near w hw p rp) (by norm_num) ep, near_real (cvtTorusFma_near w hw q rq) (by norm_num) eq⟩
  have hw1 : 1 ≤ w ∧ w ≤ 128 := by omega
  cases hisa : backwardIsa w c with
  | scalar =>
    refine fin (fun j => fromTorus w (backElt n (at' b j) (at' tw j)).re)
      (fun j => fromTorus w (backElt n (at' b j) (at' tw j)).im) ?_ ?_
    · unfold convertAddBackwardTorus
      rw [hisa]
      exact backwardScalar_eq n re im b tw hr hi hb ht
    · intro j hj
      obtain ⟨p, q, hz, rp, rq, ep, eq⟩ := close_parts (hY j hj).1
      rw [hz]
      rw [backSign_eq_one (by rintro rfl; rw [hisa]; decide)]
      simp only [one_mul]
      exact ⟨near_real (fromTorus_near w hw1.1 hw1.2 p rp) le_rfl ep, near_real (fromTorus_near w hw1.1 hw1.2 q rq) le_rfl eq⟩
  | fma =>
    refine fin _ _ ?_ (by
      rw [backSign_eq_one (by rintro rfl; rw [hisa]; decide)]
      simpa only [one_mul] using fused)
    unfold convertAddBackwardTorus
    rw [hisa]
    exact backwardFma_eq n h4 re im b tw hr hi hb ht
  | avx512 =>
    refine fin _ _ ?_ (?_ : ∀ j, j < n →
      (∃ K : ℤ, cvtTorusAvx512 w (fracFused w (backFused n (at' b j) (at' tw j)).re) =
          ((backSign w c * K : ℤ) : BitVec w) ∧ |(K : ℝ) - 2 ^ w * (Y j).re| ≤ 2 ^ w * e + 3 / 2) ∧
      ∃ L : ℤ, cvtTorusAvx512 w (fracFused w (backFused n (at' b j) (at' tw j)).im) =
        ((backSign w c * L : ℤ) : BitVec w) ∧ |(L : ℝ) - 2 ^ w * (Y j).im| ≤ 2 ^ w * e + 3 / 2)
    · unfold convertAddBackwardTorus
      rw [hisa]
      exact backwardAvx512_eq n h8 re im b tw hr hi hb ht
    · rcases hw with h | h
      · subst h
        rw [backSign_eq_one (fun h => absurd h (by decide))]
        simp only [one_mul]
        exact fused
      · subst h
        intro j hj
        obtain ⟨⟨K, k1, k2⟩, L, l1, l2⟩ := fused j hj
        have hs : backSign 64 c = -1 := by rw [backSign, if_pos ⟨rfl, hisa⟩]
        rw [hs, cvtTorusAvx512_eq64, cvtTorusAvx512_eq64]
        exact ⟨⟨K, by rw [k1, neg_one_mul, Int.cast_neg], k2⟩, L, by rw [l1, neg_one_mul, Int.cast_neg], l2⟩

theorem _root_.Verif.Poly.toRq_intMul {R : Type} [CommRing R] (N m : Nat) (f : ℕ → R) (c : ℤ) :
    (c : Rq R N) * toRq N ((List.range m).map f) = toRq N ((List.range m).map fun k => (c : R) * f k) := by
  rw [toRq_sum, toRq_sum, Finset.mul_sum, List.length_map, List.length_map]
  apply Finset.sum_congr rfl
  intro i hi
  rw [List.length_range] at hi
  have hi := Finset.mem_range.1 hi
  simp only [List.getD_eq_getElem?_getD, List.getElem?_map, List.getElem?_range hi, Option.map_some, Option.getD_some,
    map_mul, map_intCast, mul_assoc]

theorem getD_range_append {n : ℕ} (f g : ℕ → BitVec w) :
    (List.range n).map f ++ (List.range n).map g =
      (List.range (2 * n)).map fun k => if k < n then f k else g (k - n) := by
  rw [two_mul, List.range_add, List.map_append, List.map_map]
  congr 1
  · apply List.map_congr_left
    intro k hk
    rw [if_pos (List.mem_range.1 hk)]
  · apply List.map_congr_left
    intro k _
    simp

/-- The transform in which the polynomials of the key are given by `g`, for keys converted elsewhere. -/
def withKeys (w : Nat) (c : Cpu) (plan : Plan) (tw : List C64) (g : List (BitVec w) → List C64) : Pbs.Transform w :=
  { fftTransform w c plan tw with fwdGgsw := fun p => some (g p) }

/-- The coefficients that are added, for at least one product. -/
theorem fft_coeffs (hw : w = 32 ∨ w = 64) (n : ℕ) (h8 : 8 ∣ n) (c : Cpu) (plan : Plan) (ρ : ℕ → ℂ) (ε κ : ℝ) (hc : Consts n ε κ)
    (hρ : Roots n ρ) (hfwd : FwdOk n plan ρ ε) (hinv : InvOk n plan ρ ε) (tw : List C64) (ht : TwistAccurate n tw)
    (g : List (BitVec w) → List C64) (hg : ∀ p : List (BitVec w), p.length = 2 * n →
      FwdOut n κ 1 (g p) (dft n ρ (pack (1 / 2 ^ w) n (xi n) (p.map BitVec.toInt))))
    (D : ℤ) (hD : 1 ≤ D) (hD2 : D ≤ 2 ^ 64) (out : List (BitVec w)) (ho : out.length = 2 * n)
    (ps : List (List (BitVec w) × List (BitVec w))) (hne : ps ≠ []) (hm : 2 * (ps.length : ℝ) * gam ≤ κ)
    (hps : ∀ x ∈ ps, x.1.length = 2 * n ∧ x.2.length = 2 * n ∧ ∀ c ∈ x.2, |c.toInt| ≤ D) :
    ∃ K : ℕ → ℤ, (withKeys w c plan tw g).addBack out
        (ps.foldl (fun acc x => (withKeys w c plan tw g).mulAcc acc ((withKeys w c plan tw g).fwdGgsw x.1)
          ((withKeys w c plan tw g).fwdDigit x.2)) (withKeys w c plan tw g).zero) =
        (List.range (2 * n)).map (fun k => out.getD k 0 + ((backSign w c * K k : ℤ) : BitVec w)) ∧
      ∀ k, k < 2 * n → |(K k : ℝ) -
          (convSum (2 * n) (ps.map fun x => (x.1.map BitVec.toInt, x.2.map BitVec.toInt)) k : ℤ)| ≤
        2 ^ w * (13 * κ * ps.length * D * (2 * n)) + 3 / 2 := by
  have hw128 : w ≤ 128 := by omega
  have hκ0 : 0 ≤ κ := hc.eps0.trans hc.eps
  have hκ := hc.small
  have hDr : (1 : ℝ) ≤ D := by exact_mod_cast hD
  have hD90 : (D : ℝ) ≤ 2 ^ 90 := by
    have h1 : (D : ℝ) ≤ 2 ^ 64 := by exact_mod_cast hD2
    exact h1.trans (pow_mono (by norm_num))
  have hN : (1 : ℝ) ≤ n := by exact_mod_cast hc.n0
  have hn40 : (n : ℝ) ≤ 2 ^ 40 := by exact_mod_cast hc.n40
  have hm1 : (1 : ℝ) ≤ ps.length := by
    have : 1 ≤ ps.length := List.length_pos_of_ne_nil hne
    exact_mod_cast this
  set m : ℝ := (ps.length : ℝ) with hmdef
  -- the transforms
  let a : List (BitVec w) × List (BitVec w) → List C64 := fun x => g x.1
  let d : List (BitVec w) × List (BitVec w) → List C64 := fun x => forwardAsInteger c plan tw x.2
  let A : List (BitVec w) × List (BitVec w) → ℕ → ℂ := fun x => dft n ρ (pack (1 / 2 ^ w) n (xi n) (x.1.map BitVec.toInt))
  let E : List (BitVec w) × List (BitVec w) → ℕ → ℂ := fun x => dft n ρ (pack 1 n (xi n) (x.2.map BitVec.toInt))
  have hA : ∀ x ∈ ps, FwdOut n κ 1 (a x) (A x) := fun x hx => hg x.1 (hps x hx).1
  have hE : ∀ x ∈ ps, FwdOut n κ (2 * D) (d x) (E x) := fun x hx =>
    digit_fwd hc hρ hfwd hw128 c h8 tw ht x.2 (hps x hx).2.1 D hDr hD90 (by
      intro j hj
      have hj' : j < x.2.length := by rw [(hps x hx).2.1]; exact hj
      have := (hps x hx).2.2 (x.2.getD j 0) (by
        rw [List.getD_eq_getElem?_getD, List.getElem?_eq_getElem hj']
        exact List.getElem_mem hj')
      exact_mod_cast this)
  set P : ℝ := 1 * n * (2 * D * n) with hP
  have hP2 : 2 * n ≤ P := by
    rw [hP]
    have h1 : (n : ℝ) * 1 ≤ n * n := mul_le_mul_of_nonneg_left hN (by linarith)
    have h2 : 1 * ((n : ℝ) * n) ≤ D * (n * n) := mul_le_mul_of_nonneg_right hDr (by positivity)
    nlinarith
  have hprod := fun x (hx : x ∈ ps) => (hA x hx).products (hE x hx) hκ0 (by norm_num) (by linarith)
  rw [← hP] at hprod
  -- the accumulator
  have h200 : ∀ x ∈ ps, (a x).length = n ∧ (d x).length = n ∧
      ∀ k, k < n → (at' (a x) k).Finite ∧ (at' (d x) k).Finite ∧ ‖vals (a x) k‖ ≤ 2 ^ 200 ∧ ‖vals (d x) k‖ ≤ 2 ^ 200 := by
    intro x hx
    refine ⟨(hA x hx).len, (hE x hx).len, fun k hk => ⟨(hA x hx).fin k hk, (hE x hx).fin k hk, ?_, ?_⟩⟩
    · refine ((le_l2 _ hk).trans (hA x hx).norm).trans ?_
      calc (1 + 3 * κ) * (1 * n) ≤ 2 * (1 * 2 ^ 40) := mul_le_mul (by linarith) (by linarith) (by linarith) (by norm_num)
        _ = 2 ^ 41 := by norm_num
        _ ≤ 2 ^ 200 := pow_mono (by norm_num)
    · refine ((le_l2 _ hk).trans (hE x hx).norm).trans ?_
      calc (1 + 3 * κ) * (2 * D * n) ≤ 2 * (2 * 2 ^ 90 * 2 ^ 40) :=
            mul_le_mul (by linarith) (mul_le_mul (by linarith) hn40 (by linarith) (by norm_num))
              (mul_nonneg (by linarith) (by linarith)) (by norm_num)
        _ = 2 ^ 132 := by norm_num
        _ ≤ 2 ^ 200 := pow_mono (by norm_num)
  have hinit : Acc n 0 none (fun _ => 0) (fun _ => 0) :=
    ⟨by simp, by simp, by simp, by simp, by simp, by simp⟩
  have hacc := acc_fold c h8 a d ps h200 0 none _ _ hinit (by rw [← hmdef]; push_cast; linarith)
  have hfold : ps.foldl (fun acc x => (withKeys w c plan tw g).mulAcc acc ((withKeys w c plan tw g).fwdGgsw x.1)
      ((withKeys w c plan tw g).fwdDigit x.2)) (withKeys w c plan tw g).zero =
      ps.foldl (fun acc x => some (updateWithFmadd c acc (a x) (d x))) none := rfl
  rw [hfold]
  obtain ⟨o, hosome⟩ : ∃ o, ps.foldl (fun acc x => some (updateWithFmadd c acc (a x) (d x))) none = some o := by
    cases h : ps.foldl (fun acc x => some (updateWithFmadd c acc (a x) (d x))) none with
    | none =>
      have := (hacc.none h).1
      rw [zero_add] at this
      exact absurd (List.length_eq_zero_iff.1 this) hne
    | some o => exact ⟨o, rfl⟩
  rw [hosome]
  have olen := hacc.len o hosome
  have ofin := hacc.fin o hosome
  have oerr := hacc.err o hosome
  simp only [zero_add] at oerr
  rw [← hmdef] at oerr
  set S : ℕ → ℂ := fun k => (ps.map fun x => A x k * E x k).sum with hSdef
  have hQ1 : 1 ≤ m * P := by nlinarith
  have hS : ∑ k ∈ range n, ‖S k‖ ≤ m * P := by
    refine (sum_le_sum fun k _ => norm_list ps fun x => A x k * E x k).trans ?_
    exact sum_list_le n ps (fun x k => ‖A x k * E x k‖) P fun x hx => (hprod x hx).2.2
  have hTS : ∑ k ∈ range n, ‖(ps.map fun x => vals (a x) k * vals (d x) k).sum - S k‖ ≤ m * ((6 * κ + 9 * κ ^ 2) * P) := by
    refine (sum_le_sum fun k _ => norm_list_sub ps (fun x => vals (a x) k * vals (d x) k) fun x => A x k * E x k).trans ?_
    exact sum_list_le n ps (fun x k => ‖vals (a x) k * vals (d x) k - A x k * E x k‖) _ fun x hx => (hprod x hx).1
  have hG : ∑ k ∈ range n, (ps.map fun x => ‖vals (a x) k‖ * ‖vals (d x) k‖).sum ≤ m * ((1 + 3 * κ) ^ 2 * P) :=
    sum_list_le n ps (fun x k => ‖vals (a x) k‖ * ‖vals (d x) k‖) _ fun x hx => (hprod x hx).2.1
  have hoS : ∑ k ∈ range n, ‖vals o k - S k‖ ≤ 8 * κ * (m * P) := by
    have h1 : ∀ k ∈ range n, ‖vals o k - S k‖ ≤
        κ * (ps.map fun x => ‖vals (a x) k‖ * ‖vals (d x) k‖).sum + 2 * m * tiny +
          ‖(ps.map fun x => vals (a x) k * vals (d x) k).sum - S k‖ := by
      intro k hk
      have e1 := oerr k (mem_range.1 hk)
      have e2 := norm_add_le (vals o k - (ps.map fun x => vals (a x) k * vals (d x) k).sum)
        ((ps.map fun x => vals (a x) k * vals (d x) k).sum - S k)
      rw [sub_add_sub_cancel] at e2
      have e3 : 0 ≤ (ps.map fun x => ‖vals (a x) k‖ * ‖vals (d x) k‖).sum := by
        apply List.sum_nonneg
        intro y hy
        obtain ⟨x, _, rfl⟩ := List.mem_map.1 hy
        exact mul_nonneg (norm_nonneg _) (norm_nonneg _)
      have e4 := mul_le_mul_of_nonneg_right hm e3
      linarith
    refine (sum_le_sum h1).trans ?_
    rw [sum_add_distrib, sum_add_distrib, ← mul_sum, sum_const, card_range, nsmul_eq_mul]
    have e1 := mul_le_mul_of_nonneg_left hG hκ0
    have ht' := tiny_le_u
    have hu := hc.u
    have hu0 := u53_pos
    have hmP : 0 ≤ m * P := by linarith
    have e2 : (n : ℝ) * (2 * m * tiny) ≤ 1 / 64 * (κ * (m * P)) := by
      have h2 : tiny ≤ κ / 64 := by linarith
      have h3 : m * (2 * n) ≤ m * P := mul_le_mul_of_nonneg_left hP2 (by linarith)
      have h4 : m * (2 * n) * tiny ≤ m * P * (κ / 64) := mul_le_mul h3 h2 tiny_pos.le hmP
      linarith
    have e3 : κ * (κ * (m * P)) ≤ 1 / 100 * (κ * (m * P)) :=
      mul_le_mul_of_nonneg_right hκ (mul_nonneg hκ0 hmP)
    have e4 : κ * (κ * (κ * (m * P))) ≤ 1 / 100 * (κ * (κ * (m * P))) :=
      mul_le_mul_of_nonneg_right hκ (mul_nonneg hκ0 (mul_nonneg hκ0 hmP))
    have e5 : κ * (m * ((1 + 3 * κ) ^ 2 * P)) = κ * (m * P) + 6 * (κ * (κ * (m * P))) + 9 * (κ * (κ * (κ * (m * P)))) := by ring
    have e6 : m * ((6 * κ + 9 * κ ^ 2) * P) = 6 * (κ * (m * P)) + 9 * (κ * (κ * (m * P))) := by ring
    have e7 : 8 * κ * (m * P) = 8 * (κ * (m * P)) := by ring
    have e8 : 0 ≤ κ * (m * P) := mul_nonneg hκ0 hmP
    linarith
  have hQ2 : m * P ≤ 2 ^ 199 := by
    have h1 : m ≤ 2 ^ 48 := by
      have : 2 * m * gam = m / 2 ^ 48 := by unfold gam; ring
      rw [this, div_le_iff₀ (by positivity)] at hm
      have : (0 : ℝ) < 2 ^ 48 := by positivity
      nlinarith
    have hD64 : (D : ℝ) ≤ 2 ^ 64 := by exact_mod_cast hD2
    have h2 : P ≤ 1 * 2 ^ 40 * (2 * 2 ^ 64 * 2 ^ 40) := by
      rw [hP]
      exact mul_le_mul (by linarith) (mul_le_mul (by linarith) hn40 (by linarith) (by norm_num))
        (mul_nonneg (by linarith) (by linarith)) (by norm_num)
    have h3 : m * P ≤ 2 ^ 48 * (1 * 2 ^ 40 * (2 * 2 ^ 64 * 2 ^ 40)) :=
      mul_le_mul h1 h2 (by linarith) (by norm_num)
    refine h3.trans ?_
    calc (2 : ℝ) ^ 48 * (1 * 2 ^ 40 * (2 * 2 ^ 64 * 2 ^ 40)) = 2 ^ 193 := by norm_num
      _ ≤ 2 ^ 199 := pow_mono (by norm_num)
  -- the inverse transform
  obtain ⟨ilen, ifin, ierr⟩ := inverse_err hc hρ hinv hQ1 hQ2 o olen ofin S hS hoS
  let zs : List (List ℤ × List ℤ) := ps.map fun x => (x.1.map BitVec.toInt, x.2.map BitVec.toInt)
  have hzs : ∀ x ∈ zs, x.1.length = 2 * n ∧ x.2.length = 2 * n := by
    intro x hx
    obtain ⟨y, hy, rfl⟩ := List.mem_map.1 hx
    obtain ⟨a, b, _⟩ := hps y hy
    exact ⟨by simpa using a, by simpa using b⟩
  let Y : ℕ → ℂ := fun j => ((1 / 2 ^ w : ℝ) : ℂ) *
    (((convSum (2 * n) zs j : ℤ) : ℂ) + ((convSum (2 * n) zs (n + j) : ℤ) : ℂ) * Complex.I)
  have hY : ∀ j, j < n → idft n ρ S j = n * (Y j * xi n ^ j) := by
    intro j hj
    rw [← idft_products hc.n0 hρ (1 / 2 ^ w) (xi n) (xi_n hc.n0) zs hzs hj]
    congr 1
    funext k
    simp only [zs, List.map_map]
    rfl
  have hYre : ∀ j, 2 ^ w * (Y j).re = ((convSum (2 * n) zs j : ℤ) : ℝ) := by
    intro j
    have h2 : (2 : ℝ) ^ w ≠ 0 := by positivity
    rw [show Y j = ((1 / 2 ^ w : ℝ) : ℂ) *
      (((convSum (2 * n) zs j : ℤ) : ℂ) + ((convSum (2 * n) zs (n + j) : ℤ) : ℂ) * Complex.I) from rfl,
      Complex.re_ofReal_mul, ← mul_assoc, mul_one_div_cancel h2, one_mul]
    simp
  have hYim : ∀ j, 2 ^ w * (Y j).im = ((convSum (2 * n) zs (n + j) : ℤ) : ℝ) := by
    intro j
    have h2 : (2 : ℝ) ^ w ≠ 0 := by positivity
    rw [show Y j = ((1 / 2 ^ w : ℝ) : ℂ) *
      (((convSum (2 * n) zs j : ℤ) : ℂ) + ((convSum (2 * n) zs (n + j) : ℤ) : ℂ) * Complex.I) from rfl,
      Complex.im_ofReal_mul, ← mul_assoc, mul_one_div_cancel h2, one_mul]
    simp
  obtain ⟨h1, h2, h3⟩ := halves ho
  obtain ⟨K, L, hKL, heq⟩ := addBackward_eq c n h8 hw tw (plan.inv o) (out.take n) (out.drop n) ht.1 ilen h2 h3 Y
    (13 * κ * (m * P) / n) (by
      intro j hj
      obtain ⟨e1, e2⟩ := ierr j hj
      rw [hY j hj] at e1 e2
      exact back_err hc hQ1 hQ2 _ _ (Y j) (xi n ^ j) (ifin j hj) (ht.2 j hj).1 (norm_xi_pow n j) (ht.2 j hj).2 e1 e2)
  have he : 13 * κ * (m * P) / n = 13 * κ * m * D * (2 * n) := by
    rw [hP]
    have : (n : ℝ) ≠ 0 := by linarith
    field_simp
  rw [he] at hKL
  refine ⟨fun k => if k < n then K k else L (k - n), ?_, ?_⟩
  · change addBackwardAsTorus c plan tw out o = _
    unfold addBackwardAsTorus
    rw [h1]
    dsimp only
    rw [heq]
    dsimp only
    rw [getD_range_append]
    apply List.map_congr_left
    intro k hk
    by_cases hkn : k < n
    · simp only [if_pos hkn, getD_take hkn]
    · simp only [if_neg hkn, getD_drop]
      rw [show n + (k - n) = k by omega]
  · intro k hk
    by_cases hkn : k < n
    · simp only [if_pos hkn]
      have := (hKL k hkn).1
      rw [hYre] at this
      exact this
    · simp only [if_neg hkn]
      have := (hKL (k - n) (by omega)).2
      rw [hYim, show n + (k - n) = k by omega] at this
      exact this

/-- The constants of the bound. -/
theorem consts_of (n : ℕ) (hn0 : 0 < n) (hn : n ≤ 2 ^ 40) (ε : ℝ) (hε : 0 ≤ ε) (M : ℕ) (hκ : ε + (M + 1) / 2 ^ 48 ≤ 1 / 100) :
    Consts n ε (ε + (M + 1) / 2 ^ 48) := by
  have hgam : 2 * gam = 1 / 2 ^ 48 := by unfold gam; norm_num
  have hM0 : (0 : ℝ) ≤ M := Nat.cast_nonneg M
  refine ⟨hn0, hn, hε, ?_, ?_, hκ⟩
  · have : (0 : ℝ) ≤ (M + 1) / 2 ^ 48 := by positivity
    linarith
  · rw [hgam]
    have : (1 : ℝ) / 2 ^ 48 ≤ (M + 1) / 2 ^ 48 := div_le_div_of_nonneg_right (by linarith) (by positivity)
    linarith

/-- The products computed with the Fourier transform of polynomials of size `2n`: at most `M` products, whose second factors have
coefficients of absolute value at most `D`, are added (or subtracted, see `backSign`) with an error of at most `B` on each coefficient, as soon as `B`
is at least `16 (ε + (M + 1) / 2^48) M D 2n` in units of the torus, plus two units in the last place. -/
theorem fft_signed_with (hw : w = 32 ∨ w = 64) (n : ℕ) (hn0 : 0 < n) (h8 : 8 ∣ n) (hn : n ≤ 2 ^ 40) (c : Cpu) (plan : Plan) (ρ : ℕ → ℂ) (ε : ℝ) (hε : 0 ≤ ε)
    (hρ : Roots n ρ) (hfwd : FwdOk n plan ρ ε) (hinv : InvOk n plan ρ ε)
    (tw : List C64) (ht : TwistAccurate n tw) (g : List (BitVec w) → List C64) (M : ℕ)
    (hg : ∀ p : List (BitVec w), p.length = 2 * n →
      FwdOut n (ε + (M + 1) / 2 ^ 48) 1 (g p) (dft n ρ (pack (1 / 2 ^ w) n (xi n) (p.map BitVec.toInt))))
    (D : ℤ) (hD : 1 ≤ D) (hD2 : D ≤ 2 ^ 64)
    (hκ : ε + (M + 1) / 2 ^ 48 ≤ 1 / 100) (B : ℤ)
    (hB : 2 ^ w * (16 * (ε + (M + 1) / 2 ^ 48) * M * D * (2 * n)) + 2 ≤ (B : ℝ)) :
    ∀ (out : List (BitVec w)) (ps : List (List (BitVec w) × List (BitVec w))), out.length = 2 * n → ps.length ≤ M →
      (∀ x ∈ ps, x.1.length = 2 * n ∧ x.2.length = 2 * n ∧ ∀ c ∈ x.2, |c.toInt| ≤ D) →
      ((withKeys w c plan tw g).addBack out
        (ps.foldl (fun acc x => (withKeys w c plan tw g).mulAcc acc ((withKeys w c plan tw g).fwdGgsw x.1)
          ((withKeys w c plan tw g).fwdDigit x.2)) (withKeys w c plan tw g).zero)).length = 2 * n ∧
      ∃ δ : Rq (BitVec w) (2 * n), Small (2 * n) B δ ∧
        toRq (2 * n) ((withKeys w c plan tw g).addBack out
          (ps.foldl (fun acc x => (withKeys w c plan tw g).mulAcc acc ((withKeys w c plan tw g).fwdGgsw x.1)
            ((withKeys w c plan tw g).fwdDigit x.2)) (withKeys w c plan tw g).zero)) =
          toRq (2 * n) out + (backSign w c : Rq (BitVec w) (2 * n)) *
            (ps.map fun x => toRq (2 * n) x.1 * toRq (2 * n) x.2).sum + δ := by
  intro out ps ho hM hps
  have hM0 : (0 : ℝ) ≤ M := Nat.cast_nonneg M
  have hDr : (1 : ℝ) ≤ D := by exact_mod_cast hD
  have hNr : (1 : ℝ) ≤ n := by exact_mod_cast hn0
  have hw128 : w ≤ 128 := by omega
  set κ : ℝ := ε + (M + 1) / 2 ^ 48 with hκdef
  have hgam : 2 * gam = 1 / 2 ^ 48 := by unfold gam; norm_num
  have hκ0 : 0 ≤ κ := by positivity
  have hc : Consts n ε κ := by
    refine ⟨hn0, hn, hε, ?_, ?_, hκ⟩
    · rw [hκdef]
      have : (0 : ℝ) ≤ (M + 1) / 2 ^ 48 := by positivity
      linarith
    · rw [hgam, hκdef]
      have : (1 : ℝ) / 2 ^ 48 ≤ (M + 1) / 2 ^ 48 := div_le_div_of_nonneg_right (by linarith) (by positivity)
      linarith
  have hB0 : 0 ≤ B := by
    have h1 : (0 : ℝ) ≤ 2 ^ w * (16 * κ * M * D * (2 * n)) := by positivity
    have h2 : (0 : ℝ) ≤ (B : ℝ) := by linarith
    exact_mod_cast h2
  -- the integer images
  let zs : List (List ℤ × List ℤ) := ps.map fun x => (x.1.map BitVec.toInt, x.2.map BitVec.toInt)
  have hzs : ∀ x ∈ zs, x.1.length = 2 * n ∧ x.2.length = 2 * n := by
    intro x hx
    obtain ⟨y, hy, rfl⟩ := List.mem_map.1 hx
    obtain ⟨a, b, _⟩ := hps y hy
    exact ⟨by simpa using a, by simpa using b⟩
  have hzcast : zs.map (fun x => (x.1.map fun c : Int => (c : BitVec w), x.2.map fun c : Int => (c : BitVec w))) = ps := by
    simp only [zs, List.map_map]
    conv_rhs => rw [← List.map_id ps]
    apply List.map_congr_left
    intro x _
    simp only [Function.comp, List.map_map, id]
    have e2 : ∀ p : List (BitVec w), p.map ((fun c : Int => (c : BitVec w)) ∘ BitVec.toInt) = p := by
      intro p
      conv_rhs => rw [← List.map_id p]
      apply List.map_congr_left
      intro g _
      exact intCast_toInt g
    rw [e2 x.1, e2 x.2]
  -- it is enough to bound the coefficients that are added
  have main : ∃ K : ℕ → ℤ, (withKeys w c plan tw g).addBack out
        (ps.foldl (fun acc x => (withKeys w c plan tw g).mulAcc acc ((withKeys w c plan tw g).fwdGgsw x.1)
          ((withKeys w c plan tw g).fwdDigit x.2)) (withKeys w c plan tw g).zero) =
        (List.range (2 * n)).map (fun k => out.getD k 0 + ((backSign w c * K k : ℤ) : BitVec w)) ∧
      ∀ k, k < 2 * n → |K k - convSum (2 * n) zs k| ≤ B := by
    by_cases hne : ps = []
    · refine ⟨fun _ => 0, ?_, ?_⟩
      · rw [hne]
        change out = _
        apply list_ext_getD
        · simp [ho]
        · intro k hk
          rw [ho] at hk
          simp only [List.getD_eq_getElem?_getD, List.getElem?_map, List.getElem?_range hk, Option.map_some,
            Option.getD_some]
          simp
      · intro k _
        simp only [zs, hne, List.map_nil]
        simpa [convSum] using hB0
    · have hMr : (ps.length : ℝ) ≤ M := by exact_mod_cast hM
      obtain ⟨K, hK1, hK2⟩ := fft_coeffs hw n h8 c plan ρ ε κ hc hρ hfwd hinv tw ht g hg D hD hD2 out ho ps hne (by
        have e1 : 2 * (ps.length : ℝ) * gam = ps.length * (2 * gam) := by ring
        rw [e1, hgam, hκdef]
        have e2 : (ps.length : ℝ) * (1 / 2 ^ 48) ≤ (M + 1) / 2 ^ 48 := by
          rw [mul_one_div]
          exact div_le_div_of_nonneg_right (by linarith) (by positivity)
        linarith) hps
      refine ⟨K, hK1, fun k hk => ?_⟩
      have h1 := hK2 k hk
      have h2 : (2 : ℝ) ^ w * (13 * κ * ps.length * D * (2 * n)) ≤ 2 ^ w * (16 * κ * M * D * (2 * n)) := by
        have h3 : κ * (ps.length : ℝ) ≤ κ * M := mul_le_mul_of_nonneg_left hMr hκ0
        have h4 : 13 * (κ * (ps.length : ℝ)) ≤ 16 * (κ * M) := by nlinarith
        have h5 : 13 * (κ * (ps.length : ℝ)) * (D * (2 * n)) ≤ 16 * (κ * M) * (D * (2 * n)) :=
          mul_le_mul_of_nonneg_right h4 (by positivity)
        have h6 : (0 : ℝ) ≤ 2 ^ w := by positivity
        have h7 := mul_le_mul_of_nonneg_left h5 h6
        calc (2 : ℝ) ^ w * (13 * κ * ps.length * D * (2 * n)) = 2 ^ w * (13 * (κ * (ps.length : ℝ)) * (D * (2 * n))) := by
              ring
          _ ≤ _ := h7
          _ = _ := by ring
      have h3 : |(K k : ℝ) - (convSum (2 * n) zs k : ℤ)| ≤ (B : ℝ) := by
        refine h1.trans ?_
        linarith
      exact_mod_cast h3
  obtain ⟨K, hK1, hK2⟩ := main
  rw [hK1]
  refine ⟨by simp, toRq (2 * n) ((List.range (2 * n)).map fun k =>
    ((backSign w c * (K k - convSum (2 * n) zs k) : Int) : BitVec w)), ?_, ?_⟩
  · refine ⟨(List.range (2 * n)).map fun k => backSign w c * (K k - convSum (2 * n) zs k), by simp, fun x hx => ?_, ?_⟩
    · obtain ⟨k, hk, rfl⟩ := List.mem_map.1 hx
      rw [abs_mul, backSign_abs, one_mul]
      exact hK2 k (List.mem_range.1 hk)
    · rw [List.map_map]; rfl
  · have hprod := toRq_convSum (2 * n) (by omega) ps (fun x hx => ⟨(hps x hx).1, (hps x hx).2.1⟩)
    have hsign : (backSign w c : Rq (BitVec w) (2 * n)) * (ps.map fun x => toRq (2 * n) x.1 * toRq (2 * n) x.2).sum =
        toRq (2 * n) ((List.range (2 * n)).map fun k => (backSign w c : BitVec w) * convSum (2 * n) ps k) := by
      rw [← hprod, Poly.toRq_intMul]
    rw [hsign, add_assoc, ← toRq_add _ _ _ (by simp), ← toRq_add _ _ _ (by
      rw [Poly.add, zipUpdate_length]; simp [ho])]
    congr 1
    apply list_ext_getD
    · rw [Poly.add, zipUpdate_length]; simp [ho]
    · intro k hk
      simp only [List.length_map, List.length_range] at hk
      have hc' : convSum (2 * n) ps k = ((convSum (2 * n) zs k : Int) : BitVec w) := by
        rw [← convSum_cast (R := BitVec w) (2 * n) zs k, hzcast]
      rw [Poly.add, zipUpdate_getD _ _ _ k 0 0 (by simpa [ho] using hk)
        (by rw [Poly.add, zipUpdate_length]; simpa using hk), Poly.add,
        zipUpdate_getD _ _ _ k 0 0 (by simpa using hk) (by simpa using hk)]
      simp only [List.getD_eq_getElem?_getD, List.getElem?_map, List.getElem?_range hk, Option.map_some,
        Option.getD_some, hc']
      push_cast
      ring

/-- The same with the keys of the plan itself. -/
theorem fft_signed (hw : w = 32 ∨ w = 64) (n : ℕ) (hn0 : 0 < n) (h8 : 8 ∣ n) (hn : n ≤ 2 ^ 40) (c : Cpu) (plan : Plan) (ε : ℝ) (hε : 0 ≤ ε) (hplan : PlanAccurate n plan ε)
    (tw : List C64) (ht : TwistAccurate n tw) (M : ℕ) (D : ℤ) (hD : 1 ≤ D) (hD2 : D ≤ 2 ^ 64)
    (hκ : ε + (M + 1) / 2 ^ 48 ≤ 1 / 100) (B : ℤ)
    (hB : 2 ^ w * (16 * (ε + (M + 1) / 2 ^ 48) * M * D * (2 * n)) + 2 ≤ (B : ℝ)) :
    ∀ (out : List (BitVec w)) (ps : List (List (BitVec w) × List (BitVec w))), out.length = 2 * n → ps.length ≤ M →
      (∀ x ∈ ps, x.1.length = 2 * n ∧ x.2.length = 2 * n ∧ ∀ c ∈ x.2, |c.toInt| ≤ D) →
      ((fftTransform w c plan tw).addBack out
        (ps.foldl (fun acc x => (fftTransform w c plan tw).mulAcc acc ((fftTransform w c plan tw).fwdGgsw x.1)
          ((fftTransform w c plan tw).fwdDigit x.2)) (fftTransform w c plan tw).zero)).length = 2 * n ∧
      ∃ δ : Rq (BitVec w) (2 * n), Small (2 * n) B δ ∧
        toRq (2 * n) ((fftTransform w c plan tw).addBack out
          (ps.foldl (fun acc x => (fftTransform w c plan tw).mulAcc acc ((fftTransform w c plan tw).fwdGgsw x.1)
            ((fftTransform w c plan tw).fwdDigit x.2)) (fftTransform w c plan tw).zero)) =
          toRq (2 * n) out + (backSign w c : Rq (BitVec w) (2 * n)) *
            (ps.map fun x => toRq (2 * n) x.1 * toRq (2 * n) x.2).sum + δ := by
  obtain ⟨ρ, hρ, hfwd, hinv⟩ := hplan
  refine fft_signed_with hw n hn0 h8 hn c plan ρ ε hε hρ hfwd hinv tw ht (forwardAsTorus plan tw) M (fun p hp => ?_) D hD hD2 hκ B hB
  refine torus_fwd (consts_of n hn0 hn ε hε M hκ) hρ hfwd (by omega) tw ht p hp

/-- Except for the 64-bit AVX-512 version, the products are added. -/
theorem fft_accurate (hw : w = 32 ∨ w = 64) (n : ℕ) (hn0 : 0 < n) (h8 : 8 ∣ n) (hn : n ≤ 2 ^ 40) (c : Cpu)
    (hcpu : w = 64 → backwardIsa 64 c ≠ .avx512) (plan : Plan) (ε : ℝ) (hε : 0 ≤ ε) (hplan : PlanAccurate n plan ε)
    (tw : List C64) (ht : TwistAccurate n tw) (M : ℕ) (D : ℤ) (hD : 1 ≤ D) (hD2 : D ≤ 2 ^ 64)
    (hκ : ε + (M + 1) / 2 ^ 48 ≤ 1 / 100) (B : ℤ)
    (hB : 2 ^ w * (16 * (ε + (M + 1) / 2 ^ 48) * M * D * (2 * n)) + 2 ≤ (B : ℝ)) :
    (fftTransform w c plan tw).Accurate (2 * n) M D B := by
  intro out ps ho hM hps
  have h := fft_signed hw n hn0 h8 hn c plan ε hε hplan tw ht M D hD hD2 hκ B hB out ps ho hM hps
  rw [backSign_eq_one hcpu, Int.cast_one, one_mul] at h
  exact h

end Verif.Fft
