import Verif.Cuda.NsmProd
/-
The transform of the GPU computes sums of products of polynomials with a bounded error.
-/
namespace Verif.Cuda.Nsm
open Verif.Float Verif.Fft Finset Verif.Poly Verif.Ntt Verif.BV Verif.Cuda.Am

variable {w : Nat}

theorem sum_arith (m1 m2 γ η G1 G2 e1 e2 d u : ℝ) (h1 : 1 ≤ m1) (h2 : 1 ≤ m2) (hγ : 0 ≤ γ) (hη : 0 ≤ η) (hG1 : 0 ≤ G1)
    (hG2 : 0 ≤ G2) (hu : γ = 16 * u) (hm : 2 * (m1 + m2) * γ ≤ 1 / 100) (he1 : e1 ≤ (2 * m1 - 1) * (γ * G1 + η))
    (he2 : e2 ≤ (2 * m2 - 1) * (γ * G2 + η)) (hd : d ≤ 2 * u * (G1 + G2 + e1 + e2) + η / 32) :
    d + e1 + e2 ≤ (2 * (m1 + m2) - 1) * (γ * (G1 + G2) + η) := by
  have hg1 : 0 ≤ γ * G1 := mul_nonneg hγ hG1
  have hg2 : 0 ≤ γ * G2 := mul_nonneg hγ hG2
  have hsum : e1 + e2 ≤ (2 * (m1 + m2) - 3) * (γ * (G1 + G2)) + (2 * (m1 + m2) - 2) * η := by nlinarith
  have hsmall : γ * (e1 + e2) ≤ 1 / 100 * (γ * (G1 + G2) + η) := by
    have a1 : γ * (e1 + e2) ≤ γ * ((2 * (m1 + m2) - 3) * (γ * (G1 + G2)) + (2 * (m1 + m2) - 2) * η) :=
      mul_le_mul_of_nonneg_left hsum hγ
    have a2 : 2 * (m1 + m2) * γ * (γ * (G1 + G2) + η) ≤ 1 / 100 * (γ * (G1 + G2) + η) :=
      mul_le_mul_of_nonneg_right hm (by nlinarith)
    have a3 : 0 ≤ γ * (γ * (G1 + G2)) := mul_nonneg hγ (by nlinarith)
    have a4 : 0 ≤ γ * η := mul_nonneg hγ hη
    nlinarith
  have hd' : d ≤ γ / 8 * (G1 + G2) + (1 / 8) * (γ * (e1 + e2)) + η / 32 := by rw [hu] at *; linarith
  nlinarith

/-- The transforms of the two factors of a product. -/
def keyT (ch : Contract) (n : Nat) (x : List (BitVec w) × List (BitVec w)) : List C64 := gpuDirect ch n (compressKey n x.1)
def digT (ch : Contract) (n : Nat) (x : List (BitVec w) × List (BitVec w)) : List C64 := gpuDirect ch n (compressDigits n x.2)

/-- The sum of the moduli of the products. -/
noncomputable def modSum (ch : Contract) (n k : Nat) (ps : List (List (BitVec w) × List (BitVec w))) : ℝ :=
  (ps.map fun x => ‖vals (keyT ch n x) k‖ * ‖vals (digT ch n x) k‖).sum

/-- The sum of the products. -/
noncomputable def prodSum (ch : Contract) (n k : Nat) (ps : List (List (BitVec w) × List (BitVec w))) : ℂ :=
  (ps.map fun x => vals (keyT ch n x) k * vals (digT ch n x) k).sum

theorem modSum_nonneg (ch : Contract) (n k : Nat) (ps : List (List (BitVec w) × List (BitVec w))) : 0 ≤ modSum ch n k ps := by
  apply List.sum_nonneg
  intro y hy
  obtain ⟨x, _, rfl⟩ := List.mem_map.1 hy
  exact mul_nonneg (norm_nonneg _) (norm_nonneg _)

theorem prodSum_le (ch : Contract) (n k : Nat) (ps : List (List (BitVec w) × List (BitVec w))) :
    ‖prodSum ch n k ps‖ ≤ modSum ch n k ps := by
  induction ps with
  | nil => simp [prodSum, modSum]
  | cons x ps ih =>
    simp only [prodSum, modSum, List.map_cons, List.sum_cons] at ih ⊢
    refine (norm_add_le _ _).trans ?_
    rw [norm_mul]
    linarith

/-- What is known of a sum of products. -/
structure SumOk (ch : Contract) (n : Nat) (ps : List (List (BitVec w) × List (BitVec w))) (e : List C64) (k : Nat) : Prop where
  repr : (at' e k).Repr
  zero : ps = [] → (at' e k).val = 0
  err : ps ≠ [] → ‖vals e k - prodSum ch n k ps‖ ≤ (2 * ps.length - 1) * (gam * modSum ch n k ps + tiny)

theorem SumOk.of_eq {ch : Contract} {n : Nat} {ps : List (List (BitVec w) × List (BitVec w))} {e : List C64} {k : Nat} {z : C64}
    (h : at' e k = z) (h1 : z.Repr) (h2 : ps = [] → z.val = 0)
    (h3 : ps ≠ [] → ‖z.val - prodSum ch n k ps‖ ≤ (2 * ps.length - 1) * (gam * modSum ch n k ps + tiny)) : SumOk ch n ps e k := by
  subst h
  exact ⟨h1, h2, h3⟩

theorem SumOk.bound {ch : Contract} {n : Nat} {ps : List (List (BitVec w) × List (BitVec w))} {e : List C64} {k : Nat}
    (h : SumOk ch n ps e k) (hm : 2 * (ps.length : ℝ) * gam ≤ 1 / 100) (hG : modSum ch n k ps ≤ ps.length * (2 ^ 200 * 2 ^ 200)) :
    ‖vals e k‖ ≤ 2 ^ 850 := by
  rcases eq_or_ne ps [] with h0 | h0
  · have : vals e k = 0 := h.zero h0
    rw [this, norm_zero]; positivity
  · have h1 := h.err h0
    have h2 := prodSum_le ch n k ps
    have h3 := modSum_nonneg ch n k ps
    have h4 := norm_add_le (vals e k - prodSum ch n k ps) (prodSum ch n k ps)
    rw [sub_add_cancel] at h4
    have hg := gam_pos
    have hu := u53_le
    have hu0 := u53_pos
    have ht := tiny_le_u
    have ht0 := tiny_pos
    have hge := gam_eq
    have hl0 : (0 : ℝ) ≤ ps.length := Nat.cast_nonneg _
    have hl : (ps.length : ℝ) ≤ 2 ^ 49 := by
      have e : 2 * (ps.length : ℝ) * gam = 2 * ps.length / 2 ^ 49 := by unfold gam; ring
      rw [e, div_le_iff₀ (by positivity)] at hm
      nlinarith
    have hl100 : (ps.length : ℝ) ≤ 2 ^ 100 := hl.trans (pow_mono (by norm_num))
    refine acc_size_bound ps.length hl100 (modSum ch n k ps) ‖vals e k‖ hG ?_
    clear hG hl hl100
    have h5 : (2 * (ps.length : ℝ) - 1) * (gam * modSum ch n k ps + tiny) ≤ 2 * ps.length * (gam * modSum ch n k ps + tiny) :=
      mul_le_mul_of_nonneg_right (by linarith) (add_nonneg (mul_nonneg hg.le h3) ht0.le)
    have h6 : 2 * (ps.length : ℝ) * gam * modSum ch n k ps ≤ 1 / 100 * modSum ch n k ps := mul_le_mul_of_nonneg_right hm h3
    have h7 : 2 * (ps.length : ℝ) * tiny ≤ 1 / 100 := by
      have : 2 * (ps.length : ℝ) * tiny ≤ 2 * ps.length * gam := mul_le_mul_of_nonneg_left (by linarith) (by linarith)
      linarith
    linarith

theorem repr_zero {z : C64} (h : z.Repr) (h0 : z.val = 0) : z = ⟨.fin 0, .fin 0⟩ := by
  obtain ⟨p, q, rfl, _, _⟩ := h
  rw [val_fin] at h0
  have h1 : (p : ℝ) = 0 := congrArg Complex.re h0
  have h2 : (q : ℝ) = 0 := congrArg Complex.im h0
  norm_cast at h1 h2
  rw [h1, h2]

theorem add_zero_left {z : C64} (h : z.Repr) (hb : ‖z.val‖ ≤ 2 ^ 850) :
    (C64.mk (.fin 0) (.fin 0)).add z = z ∧ z.add (C64.mk (.fin 0) (.fin 0)) = z := by
  obtain ⟨p, q, rfl, rp, rq⟩ := h
  obtain ⟨b1, b2⟩ := parts_le _ _ hb
  have hp : ofRat p = .fin p := ofRat_rep rp (real_1022 (le_trans b1 (pow_mono (by norm_num))))
  have hq : ofRat q = .fin q := ofRat_rep rq (real_1022 (le_trans b2 (pow_mono (by norm_num))))
  unfold C64.add
  simp only [fadd_fin, zero_add, add_zero, hp, hq, and_self]

theorem rep_zero : Rep 0 := by have := rep_int 0 (by norm_num); simpa using this

/-- The factors of the products are finite and not too large. -/
def FactorsOk (ch : Contract) (n : Nat) (ps : List (List (BitVec w) × List (BitVec w))) (k : Nat) : Prop :=
  ∀ x ∈ ps, (at' (keyT ch n x) k).Finite ∧ (at' (digT ch n x) k).Finite ∧
    ‖vals (keyT ch n x) k‖ ≤ 2 ^ 200 ∧ ‖vals (digT ch n x) k‖ ≤ 2 ^ 200

theorem FactorsOk.size {ch : Contract} {n k : Nat} : ∀ {ps : List (List (BitVec w) × List (BitVec w))},
    FactorsOk ch n ps k → modSum ch n k ps ≤ ps.length * (2 ^ 200 * 2 ^ 200)
  | [], _ => by simp [modSum]
  | x :: ps, h => by
    have ih := FactorsOk.size (ps := ps) fun y hy => h y (List.mem_cons_of_mem _ hy)
    obtain ⟨_, _, b1, b2⟩ := h x List.mem_cons_self
    have h1 : ‖vals (keyT ch n x) k‖ * ‖vals (digT ch n x) k‖ ≤ 2 ^ 200 * 2 ^ 200 :=
      mul_le_mul b1 b2 (norm_nonneg _) (by positivity)
    simp only [modSum, List.map_cons, List.sum_cons, List.length_cons] at ih ⊢
    push_cast
    rw [add_mul, one_mul]
    linarith

/-- A sum of products, in any order. -/
theorem gpu_sum (ch : Contract) (n : Nat) (ps : List (List (BitVec w) × List (BitVec w))) (e : (gpuTransform w ch n).E)
    (h : IsSum (gpuTransform w ch n) ps e) :
    List.length (α := C64) e = n ∧ ∀ k < n, FactorsOk ch n ps k → 2 * (ps.length : ℝ) * gam ≤ 1 / 100 → SumOk ch n ps e k := by
  induction h with
  | zero =>
    refine ⟨List.length_replicate, fun k hk _ _ => ?_⟩
    have e0 : at' ((gpuTransform w ch n).zero : List C64) k = ⟨.fin 0, .fin 0⟩ := by
      show (List.replicate n (C64.mk (.fin 0) (.fin 0))).getD k _ = _
      rw [List.getD_eq_getElem?_getD, List.getElem?_replicate, if_pos hk]; rfl
    refine .of_eq e0 ⟨0, 0, rfl, rep_zero, rep_zero⟩ (fun _ => ?_) (fun h => absurd rfl h)
    · rw [val_fin]
      simp only [Rat.cast_zero]; rfl
  | one a d =>
    refine ⟨by show ((List.range n).map _).length = n; simp, fun k hk hF _ => ?_⟩
    obtain ⟨f1, f2, b1, b2⟩ := hF (a, d) (by simp)
    have e0 : at' ((gpuTransform w ch n).mul ((gpuTransform w ch n).fwdDigit d) ((gpuTransform w ch n).fwdGgsw a) : List C64) k =
        gpuMul ch k (at' (digT ch n (a, d)) k) (at' (keyT ch n (a, d)) k) := at_map _ hk
    have hc := (prod_err (ch.mul k 0) (ch.mul k 1) _ _ f2 f1 (b2.trans (pow_mono (by norm_num)))
      (b1.trans (pow_mono (by norm_num)))).1
    have hc := hc.mono (six_le_gam (mul_nonneg (norm_nonneg _) (norm_nonneg _)))
    refine .of_eq e0 hc.1 (fun h => absurd h (by simp)) fun _ => ?_
    have h2 := hc.2
    simp only [prodSum, modSum, List.map_cons, List.map_nil, List.sum_cons, List.sum_nil, add_zero, List.length_singleton]
    rw [mul_comm (at' (digT ch n (a, d)) k).val, mul_comm ‖(at' (digT ch n (a, d)) k).val‖] at h2
    refine h2.trans (le_of_eq ?_)
    rw [show (2 * ((1 : ℕ) : ℝ) - 1) = 1 by norm_num, one_mul]; rfl
  | @add ps qs e f hp hq ihp ihq =>
    refine ⟨by show ((List.range n).map _).length = n; simp, fun k hk hF hm => ?_⟩
    rw [List.length_append] at hm
    push_cast at hm
    have hg := gam_pos
    have l1 : (0 : ℝ) ≤ ps.length := Nat.cast_nonneg _
    have l2 : (0 : ℝ) ≤ qs.length := Nat.cast_nonneg _
    have hm1 : 2 * (ps.length : ℝ) * gam ≤ 1 / 100 := by nlinarith
    have hm2 : 2 * (qs.length : ℝ) * gam ≤ 1 / 100 := by nlinarith
    have F1 : FactorsOk ch n ps k := fun x hx => hF x (List.mem_append_left _ hx)
    have F2 : FactorsOk ch n qs k := fun x hx => hF x (List.mem_append_right _ hx)
    have S1 := ihp.2 k hk F1 hm1
    have S2 := ihq.2 k hk F2 hm2
    have b1 := S1.bound hm1 F1.size
    have b2 := S2.bound hm2 F2.size
    have e0 : at' ((gpuTransform w ch n).add e f : List C64) k = (at' e k).add (at' f k) := at_map _ hk
    by_cases h1 : ps = []
    · have z := repr_zero S1.repr (S1.zero h1)
      have ea : at' ((gpuTransform w ch n).add e f : List C64) k = at' f k := by
        rw [e0, z, (add_zero_left S2.repr b2).1]
      subst h1
      exact .of_eq ea S2.repr S2.zero S2.err
    by_cases h2 : qs = []
    · have z := repr_zero S2.repr (S2.zero h2)
      have ea : at' ((gpuTransform w ch n).add e f : List C64) k = at' e k := by
        rw [e0, z, (add_zero_left S1.repr b1).2]
      subst h2
      rw [List.append_nil]
      exact .of_eq ea S1.repr S1.zero S1.err
    have hc := cadd_err _ _ S1.repr.finite S2.repr.finite b1 b2
    clear b1 b2
    refine .of_eq e0 hc.1 (fun h => absurd (List.append_eq_nil_iff.1 h).1 h1) fun _ => ?_
    have E1 := S1.err h1
    have E2 := S2.err h2
    have hT : prodSum ch n k (ps ++ qs) = prodSum ch n k ps + prodSum ch n k qs := by simp [prodSum]
    have hG : modSum ch n k (ps ++ qs) = modSum ch n k ps + modSum ch n k qs := by simp [modSum]
    have m1 : (1 : ℝ) ≤ ps.length := by exact_mod_cast List.length_pos_of_ne_nil h1
    have m2 : (1 : ℝ) ≤ qs.length := by exact_mod_cast List.length_pos_of_ne_nil h2
    have n1 := norm_add_le (vals e k - prodSum ch n k ps) (prodSum ch n k ps)
    have n2 := norm_add_le (vals f k - prodSum ch n k qs) (prodSum ch n k qs)
    rw [sub_add_cancel] at n1 n2
    have p1 := prodSum_le ch n k ps
    have p2 := prodSum_le ch n k qs
    have hsum := norm_add_le (vals e k) (vals f k)
    have hd : 2 * u53 * ‖(at' e k).val + (at' f k).val‖ + tiny / 32 ≤
        2 * u53 * (modSum ch n k ps + modSum ch n k qs + ‖vals e k - prodSum ch n k ps‖ + ‖vals f k - prodSum ch n k qs‖) + tiny / 32 := by
      have : ‖(at' e k).val + (at' f k).val‖ ≤
          modSum ch n k ps + modSum ch n k qs + ‖vals e k - prodSum ch n k ps‖ + ‖vals f k - prodSum ch n k qs‖ := by
        refine le_trans hsum ?_
        linarith
      have := mul_le_mul_of_nonneg_left this (show 0 ≤ 2 * u53 by linarith [u53_pos])
      linarith
    have fin := sum_arith _ _ gam tiny _ _ _ _ _ u53 m1 m2 hg.le tiny_pos.le (modSum_nonneg ch n k ps) (modSum_nonneg ch n k qs)
      gam_eq hm E1 E2 hd
    rw [hT, hG, List.length_append]
    push_cast
    have h3 := hc.2
    have h4 : ((at' e k).add (at' f k)).val - (prodSum ch n k ps + prodSum ch n k qs) =
        (((at' e k).add (at' f k)).val - ((at' e k).val + (at' f k).val)) + (vals e k - prodSum ch n k ps) +
          (vals f k - prodSum ch n k qs) := by simp only [vals]; ring
    rw [h4]
    have h5 := norm_add_le ((((at' e k).add (at' f k)).val - ((at' e k).val + (at' f k).val)) + (vals e k - prodSum ch n k ps))
      (vals f k - prodSum ch n k qs)
    have h6 := norm_add_le (((at' e k).add (at' f k)).val - ((at' e k).val + (at' f k).val)) (vals e k - prodSum ch n k ps)
    have h7 : ‖((at' e k).add (at' f k)).val - ((at' e k).val + (at' f k).val)‖ ≤
      2 * u53 * ‖(at' e k).val + (at' f k).val‖ + tiny / 32 := h3
    linarith

/-- The inverse transform of an approximate sum of products. -/
theorem gpu_inverse_err (ch : Contract) {K n : Nat} (hK : K + 1 ≤ 12) (hn : n = 2 ^ (K + 1)) {κ Q : ℝ}
    (hc : Consts n (26 * gam) κ) (hQ : (n : ℝ) ≤ Q) (hQ2 : Q ≤ 2 ^ 199) (o : List C64)
    (fo : ∀ k, k < n → (at' o k).Finite) (S : ℕ → ℂ) (hS : ∑ k ∈ range n, ‖S k‖ ≤ Q)
    (hoS : ∑ k ∈ range n, ‖vals o k - S k‖ ≤ 8 * κ * Q) (j : Nat) (hj : j < n) (Y : ℂ)
    (hY : idft n (rho n) S j = n * (Y * xi n ^ j)) :
    (at' (gpuInverse ch n o) j).Finite ∧ ‖vals (gpuInverse ch n o) j - Y‖ ≤ 10 * κ * (Q / n) := by
  have hκ0 : 0 ≤ κ := hc.eps0.trans hc.eps
  have hκ := hc.small
  have hu := hc.u
  have hu0 := u53_pos
  have hN : (1 : ℝ) ≤ n := by exact_mod_cast hc.n0
  have hN0 : (0 : ℝ) < n := by linarith
  have hnC : (n : ℂ) ≠ 0 := by exact_mod_cast hc.n0.ne'
  have hρ : Roots n (rho n) := by rw [hn]; exact rho_roots (K + 1)
  have hκQ : 0 ≤ κ * Q := mul_nonneg hκ0 (by linarith)
  have hκQ2 : κ * Q ≤ 1 / 100 * Q := mul_le_mul_of_nonneg_right hκ (by linarith)
  have hsum : ∑ k ∈ range n, ‖vals o k‖ ≤ 1.08 * Q := by
    have h1 : ∀ k ∈ range n, ‖vals o k‖ ≤ ‖vals o k - S k‖ + ‖S k‖ := by
      intro k _
      have := norm_add_le (vals o k - S k) (S k)
      rwa [sub_add_cancel] at this
    refine (sum_le_sum h1).trans ?_
    rw [sum_add_distrib]
    linarith
  have hb : ∀ k < n, (at' o k).Finite ∧ ‖(at' o k).val‖ ≤ 2 ^ 200 := by
    intro k hk
    refine ⟨fo k hk, ?_⟩
    have h1 : ‖vals o k‖ ≤ ∑ k ∈ range n, ‖vals o k‖ :=
      single_le_sum (f := fun k => ‖vals o k‖) (fun _ _ => norm_nonneg _) (mem_range.2 hk)
    have h2 : (2 : ℝ) ^ 199 + 2 ^ 199 = 2 ^ 200 := pow_double 199
    change ‖vals o k‖ ≤ 2 ^ 200
    generalize (2 : ℝ) ^ 199 = A at *
    generalize (2 : ℝ) ^ 200 = B at *
    linarith
  clear hQ2
  obtain ⟨f, e⟩ := inverse_close ch (K + 1) hK (at' o) (by rw [← hn]; exact hb) j (by rw [← hn]; exact hj)
  have eY := inverse_idft (K + 1) S j (by rw [← hn]; exact hj)
  have eO := inverse_idft (K + 1) (fun p => (at' o p).val) j (by rw [← hn]; exact hj)
  rw [← hn] at f e eY eO
  have hv : at' (gpuInverse ch n o) j = inverse (floatOps ch) twiddle n (at' o) j := by rw [gpuInverse, at_map _ hj]
  refine ⟨by rw [hv]; exact f, ?_⟩
  have eY' : inverse (cOps n) rootW n S j = Y := by
    rw [eY, hY]
    have h1 : (xi n)⁻¹ ^ j * xi n ^ j = 1 := by rw [← mul_pow, inv_mul_cancel₀ (xi_ne n), one_pow]
    rw [show (xi n)⁻¹ ^ j * (n * (Y * xi n ^ j)) / n = Y * ((xi n)⁻¹ ^ j * xi n ^ j) * (n / n) by ring, h1, div_self hnC]
    ring
  have hlin : ‖inverse (cOps n) rootW n (fun p => (at' o p).val) j - inverse (cOps n) rootW n S j‖ ≤ 8 * κ * Q / n := by
    rw [eO, eY]
    rw [show (xi n)⁻¹ ^ j * idft n (rho n) (fun p => (at' o p).val) j / (n : ℂ) - (xi n)⁻¹ ^ j * idft n (rho n) S j / (n : ℂ) =
      (xi n)⁻¹ ^ j * (idft n (rho n) (fun p => (at' o p).val) j - idft n (rho n) S j) / (n : ℂ) by ring, ← idft_sub, norm_div,
      norm_mul, Complex.norm_natCast, norm_pow, norm_inv, xi_norm, inv_one, one_pow, one_mul]
    exact div_le_div_of_nonneg_right ((hρ.idft_le _ j).trans hoS) hN0.le
  rw [eY'] at hlin
  have h3 := norm_add_le (vals (gpuInverse ch n o) j - inverse (cOps n) rootW n (fun p => (at' o p).val) j)
    (inverse (cOps n) rootW n (fun p => (at' o p).val) j - Y)
  rw [sub_add_sub_cancel] at h3
  have h4 : ‖vals (gpuInverse ch n o) j - inverse (cOps n) rootW n (fun p => (at' o p).val) j‖ ≤
      25 * gam * ((∑ p ∈ range n, ‖(at' o p).val‖) / n) + 2 ^ 24 * tiny := by
    rw [vals, hv]; exact e
  have h5 : (∑ p ∈ range n, ‖(at' o p).val‖) / (n : ℝ) ≤ 1.08 * Q / n := div_le_div_of_nonneg_right hsum hN0.le
  have hQn : 1 ≤ Q / n := by rw [le_div_iff₀ hN0]; linarith
  have h6 : 25 * gam * ((∑ p ∈ range n, ‖(at' o p).val‖) / n) ≤ κ * (1.08 * Q / n) :=
    mul_le_mul (by linarith [hc.eps, gam_pos]) h5 (div_nonneg (sum_nonneg fun _ _ => norm_nonneg _) hN0.le) hκ0
  have h7 : 2 ^ 24 * tiny ≤ u53 / 64 := tiny_n (n := 2 ^ 24) (pow_mono (by norm_num))
  have h8 : κ * 1 ≤ κ * (Q / n) := mul_le_mul_of_nonneg_left hQn hκ0
  have e1 : κ * (1.08 * Q / n) = 1.08 * (κ * (Q / n)) := by ring
  have e2 : 8 * κ * Q / n = 8 * (κ * (Q / n)) := by ring
  have e3 : 10 * κ * (Q / n) = 10 * (κ * (Q / n)) := by ring
  linarith

end Verif.Cuda.Nsm
