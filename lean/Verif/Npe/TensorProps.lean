import Verif.Npe.BitsProps
/-
C102: the rounding term of the tensor product estimate and the key term of the relinearization estimate, against the
variances of the quantities they stand for.
-/
namespace Verif.Npe
open Verif.Decomp Dist

variable {κ ε : Type} [Fintype κ] [Fintype ε]

/-- The error of the rounding to an integer of a multiple of `2^-m` whose lower bits are `x`. -/
def fraction {m : Nat} (x : BitVec m) : ℚ := x.toInt / 2 ^ m

theorem Var_fraction_mul {m : Nat} (hm : 0 < m) (d : Dist κ) (T : κ → ℚ) :
    ((uniform (BitVec m)).prod d).Var (fun x => fraction x.1 * T x.2) =
      ((2 ^ (2 * m) - 1) * (d.Var T + d.E T ^ 2) + 3 * d.Var T) / (12 * 2 ^ (2 * m)) := by
  have h2 : (2 ^ (2 * m) : ℚ) = (2 ^ m) ^ 2 := by rw [← pow_mul]; congr 1; ring
  rw [Var_congr _ (Y := fun x : BitVec m × κ => (1 / 2 ^ m) * ((x.1.toInt : ℚ) * T x.2)) (fun x => by
      rw [fraction]; ring),
    Var_cmul, Var_eq, E_prod_mul (uniform (BitVec m)) d (fun x => (x.toInt : ℚ)) T,
    E_congr _ (Y := fun x : BitVec m × κ => (x.1.toInt : ℚ) ^ 2 * T x.2 ^ 2) (fun x => by ring),
    E_prod_mul (uniform (BitVec m)) d (fun x => (x.toInt : ℚ) ^ 2) (fun x => T x ^ 2), E_toInt hm, E_toInt_sq hm,
    Var_eq d, h2]
  have h3 : (2 ^ m : ℚ) ≠ 0 := by positivity
  field_simp
  ring

theorem Var_fraction {m : Nat} (hm : 0 < m) :
    (uniform (BitVec m)).Var fraction = (2 ^ (2 * m) - 1) / (12 * 2 ^ (2 * m)) := by
  have h2 : (2 ^ (2 * m) : ℚ) = (2 ^ m) ^ 2 := by rw [← pow_mul]; congr 1; ring
  rw [Var_congr _ (Y := fun x : BitVec m => (1 / 2 ^ m) * (x.toInt : ℚ)) (fun x => by rw [fraction]; ring),
    Var_cmul, Var_eq, E_toInt hm, E_toInt_sq hm, h2]
  have h3 : (2 ^ m : ℚ) ≠ 0 := by positivity
  field_simp
  ring

theorem sum_parity (f : Nat → ℚ) (a b : ℚ) (N : Nat) (hN : 2 ∣ N) (ho : ∀ n, n < N → n % 2 = 1 → f n = a)
    (he : ∀ n, n < N → n % 2 = 0 → f n = b) : ∑ n ∈ Finset.range N, f n = N / 2 * (a + b) := by
  obtain ⟨h, rfl⟩ := hN
  induction h with
  | zero => simp
  | succ h ih =>
    rw [show 2 * (h + 1) = 2 * h + 1 + 1 by ring, Finset.sum_range_succ, Finset.sum_range_succ,
      ih (fun n hn => ho n (by omega)) (fun n hn => he n (by omega)), ho (2 * h + 1) (by omega) (by omega),
      he (2 * h) (by omega) (by omega)]
    push_cast
    ring

/-- C102, tensor product of noiseless ciphertexts with the scale `2^m`: the estimate is the sum of the variances of the
rounding errors, each multiplied by the coefficient of the key, of the product of two keys or of the square of a key that it
meets in the phase (one body, `k` masks, `k (k - 1) / 2` products, `k` squares of `N` coefficients each), plus
`1 / (12 * 2^(2 m))`: the error of the body is taken as uniform on an interval. -/
theorem C102_tensor_rounding (K : KeyDispersion) (d : Dist κ) (X : κ → ℚ) (hK : Describes K d X) (N k m q : Nat)
    (hm : 0 < m) (hN : 0 < N) (hN2 : 2 ∣ N) (max1 max2 : ℚ) :
    modVar (tensorNoise K N k 0 0 (2 ^ m) (2 ^ m) max1 max2 q) q =
      (uniform (BitVec m)).Var fraction + 1 / (12 * 2 ^ (2 * m)) +
      k * ∑ _n ∈ Finset.range N, ((uniform (BitVec m)).prod d).Var (fun x => fraction x.1 * X x.2) +
      k * (k - 1) / 2 * ∑ n ∈ Finset.range N, ((uniform (BitVec m)).prod ((iid N d).prod (iid N d))).Var
        (fun x => fraction x.1 * productCoef X N n x.2) +
      k * ∑ n ∈ Finset.range N, ((uniform (BitVec m)).prod (iid N d)).Var
        (fun x => fraction x.1 * squareCoef X N n x.2) := by
  have h2 : (2 ^ (2 * m) : ℚ) = (2 ^ m) ^ 2 := by rw [← pow_mul]; congr 1; ring
  have h3 : (2 ^ m : ℚ) ≠ 0 := by positivity
  have hN0 : (N : ℚ) ≠ 0 := by exact_mod_cast hN.ne'
  have e1 : ∑ n ∈ Finset.range N, ((uniform (BitVec m)).prod ((iid N d).prod (iid N d))).Var
        (fun x => fraction x.1 * productCoef X N n x.2) =
      N * (((2 ^ (2 * m) - 1) * (modVar (K.varTimes N q) q + K.sqExpTimes N) + 3 * modVar (K.varTimes N q) q) /
        (12 * 2 ^ (2 * m))) := by
    rw [Finset.sum_congr rfl fun n hn => by
      rw [Var_fraction_mul hm, ← hK.varTimes q N n (Finset.mem_range.1 hn)], ← Finset.sum_div, Finset.sum_add_distrib,
      ← Finset.mul_sum, Finset.sum_add_distrib, hK.sqExpTimes N hN]
    simp only [Finset.sum_const, Finset.card_range, nsmul_eq_mul]
    field_simp
  have e2 : ∑ n ∈ Finset.range N, (iid N d).Var (squareCoef X N n) =
      N / 2 * (modVar (K.varOdd N q) q + modVar (K.varEven N q) q) :=
    sum_parity _ _ _ N hN2 (fun n hn h => (hK.varOdd q N n hN2 hn h).symm)
      (fun n hn h => (hK.varEven q N n hN2 hn h).symm)
  have e3 : ∑ n ∈ Finset.range N, (iid N d).E (squareCoef X N n) ^ 2 = N * K.sqExpSquared N q := by
    rw [hK.sqExpSquared q N (Or.inr ⟨hN, hN2⟩)]
    field_simp
  have e4 : ∑ n ∈ Finset.range N, ((uniform (BitVec m)).prod (iid N d)).Var
        (fun x => fraction x.1 * squareCoef X N n x.2) =
      ((2 ^ (2 * m) - 1) * (N / 2 * (modVar (K.varOdd N q) q + modVar (K.varEven N q) q) + N * K.sqExpSquared N q) +
        3 * (N / 2 * (modVar (K.varOdd N q) q + modVar (K.varEven N q) q))) / (12 * 2 ^ (2 * m)) := by
    rw [← e2, ← e3, ← Finset.sum_add_distrib, Finset.mul_sum, Finset.mul_sum, ← Finset.sum_add_distrib, Finset.sum_div]
    exact Finset.sum_congr rfl fun n _ => Var_fraction_mul hm (iid N d) (squareCoef X N n)
  rw [e1, e4, Var_fraction hm, Finset.sum_const, Finset.card_range, nsmul_eq_mul, Var_fraction_mul hm d X,
    ← hK.varCoef q, ← hK.expCoef, tensorNoise]
  simp only [modVar_ofModVar, min_self, square]
  rw [show modVar 0 q = 0 by simp [modVar], h2]
  field_simp
  ring

/-- C102, relinearization: the noise of the relinearization key adds, for each of the `k (k + 1) / 2` products of key
polynomials and each of the `N` coefficients, the product of the `l` digits of a uniform word with `l` noises. The part of
the estimate that depends on the noise of the key is the variance of this sum, up to `digitGap` per coefficient and product,
which is zero for one level. The signs that the coefficients have in the phase do not change the variance and are left out. -/
theorem C102_relinearization_key {w l : Nat} (b : Nat) (hv : ValidParams w b l) (K : KeyDispersion) (de : Dist ε)
    (e : ε → Int) (he : de.E (fun x => (e x : ℚ)) = 0) (N k M : Nat) (hM : 2 * M = k * (k + 1)) :
    modVar (relinNoise K N k (ofModVar (de.Var fun x => (e x : ℚ)) w) b l w) w - modVar (relinNoise K N k 0 b l w) w =
      (iid (M * N) ((uniform (BitVec w)).prod (iid l de))).Var
        (fun ω => ∑ i, ∑ j : Fin l, ((Lwe.ksDigit b l (ω i).1 (l - 1 - j)).toInt : ℚ) * (e ((ω i).2 j) : ℚ)) +
      M * N * (de.Var fun x => (e x : ℚ)) * digitGap (2 ^ b) l := by
  obtain ⟨p1, p2⟩ := partNoise_E b hv (uniform Unit) de (fun _ => 0) e he
  have hdrop : ∀ F : BitVec w × (Fin l → ε) → ℚ, ((uniform (BitVec w)).prod ((uniform Unit).prod (iid l de))).E
      (fun x => F (x.1, x.2.2)) = ((uniform (BitVec w)).prod (iid l de)).E F := by
    intro F
    rw [E_prod, E_prod]
    exact E_congr _ fun a => E_prod_snd (uniform Unit) (iid l de) fun y => F (a, y)
  have hpart : ∀ x : BitVec w × Unit × (Fin l → ε), (partNoise b l (fun _ => 0) e x : ℚ) =
      -∑ j : Fin l, ((Lwe.ksDigit b l x.1 (l - 1 - j)).toInt : ℚ) * (e (x.2.2 j) : ℚ) := by
    intro x
    rw [partNoise]
    push_cast
    ring
  have q1 : ((uniform (BitVec w)).prod (iid l de)).E
      (fun x => ∑ j : Fin l, ((Lwe.ksDigit b l x.1 (l - 1 - j)).toInt : ℚ) * (e (x.2 j) : ℚ)) = 0 := by
    rw [← hdrop, E_congr _ (Y := fun x => (-1) * (partNoise b l (fun _ => 0) e x : ℚ)) (fun x => by rw [hpart]; ring),
      E_mul_left, p1, E_const]
    simp
  have q2 : ((uniform (BitVec w)).prod (iid l de)).E
      (fun x => (∑ j : Fin l, ((Lwe.ksDigit b l x.1 (l - 1 - j)).toInt : ℚ) * (e (x.2 j) : ℚ)) ^ 2) =
        de.Var (fun x => (e x : ℚ)) * (l * (((2 ^ b) ^ 2 + 2) / 12) - digitGap (2 ^ b) l) := by
    rw [← hdrop, E_congr _ (Y := fun x => (partNoise b l (fun _ => 0) e x : ℚ) ^ 2) (fun x => by rw [hpart]; ring),
      p2, sum_meanSq, E_const]
    simp
  rw [iid, Var_pi_sum (fun _ => (uniform (BitVec w)).prod (iid l de))
    (fun _ x => ∑ j : Fin l, ((Lwe.ksDigit b l x.1 (l - 1 - j)).toInt : ℚ) * (e (x.2 j) : ℚ)), Finset.sum_const,
    Finset.card_univ, Fintype.card_fin, nsmul_eq_mul, Var_eq ((uniform (BitVec w)).prod (iid l de)), q1, q2, relinNoise, relinNoise]
  simp only [modVar_ofModVar, square]
  rw [show modVar 0 w = 0 by simp [modVar]]
  have hM' : (2 * M : ℚ) = k * (k + 1) := by exact_mod_cast hM
  push_cast
  linear_combination (-(l : ℚ) * N * (de.Var fun x => (e x : ℚ)) * ((2 ^ b) ^ 2 + 2) / 24) * hM'

-- the hypotheses hold: binary keys, 64 bits, 3 levels of 7 bits, GLWE dimension 2, noises of 0 and -1, 1
example : Describes binaryKey (uniform Bool) bitValue ∧ ValidParams 64 7 3 ∧ 2 * 3 = 2 * (2 + 1) ∧
    (uniform (Fin 3)).E (fun t => ((((t.val : Int) - 1 : Int)) : ℚ)) = 0 := by
  refine ⟨C96_binary, ⟨by decide, by decide, by decide⟩, rfl, ?_⟩
  rw [E, uniform]
  simp [Fin.sum_univ_succ]

/-! ### The noises of the factors of a tensor product -/

theorem linear_moments {N : Nat} (d : Dist ε) (Y : ε → ℚ) (hY : d.E Y = 0) (c : Fin N → ℚ) :
    (iid N d).E (fun ω => ∑ i, c i * Y (ω i)) = 0 ∧
    (iid N d).E (fun ω => (∑ i, c i * Y (ω i)) ^ 2) = (∑ i, c i ^ 2) * d.Var Y := by
  have h1 : (iid N d).E (fun ω => ∑ i, c i * Y (ω i)) = 0 := by
    rw [E_sum]
    refine Finset.sum_eq_zero fun i _ => ?_
    rw [iid, E_pi_one (fun _ => d) i (fun x => c i * Y x), E_mul_left, hY, mul_zero]
  refine ⟨h1, ?_⟩
  have h2 := Var_pi_sum (fun _ : Fin N => d) (fun i x => c i * Y x)
  have h3 := Var_eq (iid N d) (fun ω => ∑ i, c i * Y (ω i))
  rw [h1] at h3
  rw [iid] at *
  rw [h2] at h3
  simp only [Var_cmul] at h3
  rw [Finset.sum_mul]
  linarith

theorem sum_eps_partner {N : Nat} (n : Nat) (hn : n < N) (f g : Fin N → ℚ) :
    ∑ i : Fin N, eps n i * (f i * g (partner n i)) = ∑ i : Fin N, (eps n i * f (partner n i)) * g i := by
  refine Finset.sum_nbij' (partner n) (partner n) (by simp) (by simp) (fun i _ => partner_partner n hn i)
    (fun i _ => partner_partner n hn i) fun i _ => ?_
  rw [partner_partner n hn, eps_partner n hn]
  ring

theorem sum_eps_sq {N : Nat} (n : Nat) (hn : n < N) (f : Fin N → ℚ) :
    ∑ i : Fin N, (eps n i * f (partner n i)) ^ 2 = ∑ i : Fin N, f i ^ 2 := by
  refine Finset.sum_nbij' (partner n) (partner n) (by simp) (by simp) (fun i _ => partner_partner n hn i)
    (fun i _ => partner_partner n hn i) fun i _ => ?_
  have := eps_sq n i
  rw [mul_pow, sq (eps n i), this, one_mul]

/-- Coefficient `n` of the noise of the product of `D1 m1 + e1` and `D2 m2 + e2`, divided by `delta`. -/
def productNoise {N : Nat} {α β : Type} (n : Nat) (D1 D2 delta : ℚ) (m1 m2 : Fin N → ℚ) (e1 : α → ℚ) (e2 : β → ℚ)
    (ω : (Fin N → α) × (Fin N → β)) : ℚ :=
  (Poly.negaConv N (List.ofFn fun i => D1 * m1 i) (List.ofFn fun i => e2 (ω.2 i)) n +
    Poly.negaConv N (List.ofFn fun i => e1 (ω.1 i)) (List.ofFn fun i => D2 * m2 i) n +
    Poly.negaConv N (List.ofFn fun i => e1 (ω.1 i)) (List.ofFn fun i => e2 (ω.2 i)) n) / delta

theorem Var_productNoise {N : Nat} {α β : Type} [Fintype α] [Fintype β] (n : Nat) (hn : n < N) (D1 D2 delta : ℚ)
    (m1 m2 : Fin N → ℚ) (d1 : Dist α) (d2 : Dist β) (e1 : α → ℚ) (e2 : β → ℚ) (h1 : d1.E e1 = 0) (h2 : d2.E e2 = 0) :
    ((iid N d1).prod (iid N d2)).Var (productNoise n D1 D2 delta m1 m2 e1 e2) =
      (d2.Var e2 * (D1 ^ 2 * ∑ i, m1 i ^ 2) + d1.Var e1 * (D2 ^ 2 * ∑ i, m2 i ^ 2) +
        N * (d1.Var e1 * d2.Var e2)) / delta ^ 2 := by
  have hform : ∀ ω, productNoise n D1 D2 delta m1 m2 e1 e2 ω = (1 / delta) *
      ((∑ i : Fin N, (eps n i * (D1 * m1 (partner n i) + e1 (ω.1 (partner n i)))) * e2 (ω.2 i)) +
        ∑ i : Fin N, (eps n i * (D2 * m2 (partner n i))) * e1 (ω.1 i)) := by
    intro ω
    have a1 := sum_eps_partner n hn (fun i => D1 * m1 i + e1 (ω.1 i)) (fun i => e2 (ω.2 i))
    have a2 : ∑ i : Fin N, eps n i * (e1 (ω.1 i) * (D2 * m2 (partner n i))) =
        ∑ i : Fin N, (eps n i * (D2 * m2 (partner n i))) * e1 (ω.1 i) := Finset.sum_congr rfl fun i _ => by ring
    rw [productNoise, negaConv_eq n hn, negaConv_eq n hn, negaConv_eq n hn, ← a1, ← a2]
    simp only [add_mul, mul_add, Finset.sum_add_distrib]
    ring
  have hin : ∀ x : Fin N → α, (iid N d2).E (fun y =>
      ((∑ i : Fin N, (eps n i * (D1 * m1 (partner n i) + e1 (x (partner n i)))) * e2 (y i)) +
        ∑ i : Fin N, (eps n i * (D2 * m2 (partner n i))) * e1 (x i))) =
      ∑ i : Fin N, (eps n i * (D2 * m2 (partner n i))) * e1 (x i) := by
    intro x
    rw [E_add, (linear_moments d2 e2 h2 _).1, E_const, zero_add]
  have hin2 : ∀ x : Fin N → α, (iid N d2).E (fun y =>
      ((∑ i : Fin N, (eps n i * (D1 * m1 (partner n i) + e1 (x (partner n i)))) * e2 (y i)) +
        ∑ i : Fin N, (eps n i * (D2 * m2 (partner n i))) * e1 (x i)) ^ 2) =
      (∑ i, (D1 ^ 2 * m1 i ^ 2 + (2 * D1 * m1 i) * e1 (x i) + e1 (x i) ^ 2)) * d2.Var e2 +
        (∑ i : Fin N, (eps n i * (D2 * m2 (partner n i))) * e1 (x i)) ^ 2 := by
    intro x
    have b := linear_moments d2 e2 h2 (fun i => eps n i * (D1 * m1 (partner n i) + e1 (x (partner n i))))
    have b3 := sum_eps_sq n hn (fun i => D1 * m1 i + e1 (x i))
    generalize ∑ i : Fin N, (eps n i * (D2 * m2 (partner n i))) * e1 (x i) = G
    rw [E_congr _ (Y := fun y =>
        (∑ i : Fin N, (eps n i * (D1 * m1 (partner n i) + e1 (x (partner n i)))) * e2 (y i)) ^ 2 +
          (2 * G) * (∑ i : Fin N, (eps n i * (D1 * m1 (partner n i) + e1 (x (partner n i)))) * e2 (y i)) + G ^ 2)
        (fun y => by ring), E_add, E_add, E_mul_left, E_const, b.1, b.2, b3, mul_zero, add_zero]
    congr 2
    exact Finset.sum_congr rfl fun i _ => by ring
  rw [Var_congr _ hform, Var_cmul, Var_eq, E_prod, E_prod, E_congr _ hin, E_congr _ hin2,
    (linear_moments d1 e1 h1 _).1, E_add, E_mul_right, (linear_moments d1 e1 h1 _).2,
    sum_eps_sq n hn (fun i => D2 * m2 i), E_sum]
  have hone : ∀ i : Fin N, (iid N d1).E (fun x => D1 ^ 2 * m1 i ^ 2 + (2 * D1 * m1 i) * e1 (x i) + e1 (x i) ^ 2) =
      D1 ^ 2 * m1 i ^ 2 + d1.Var e1 := by
    intro i
    rw [iid, E_pi_one (fun _ => d1) i (fun a => D1 ^ 2 * m1 i ^ 2 + (2 * D1 * m1 i) * e1 a + e1 a ^ 2), E_add, E_add,
      E_const, E_mul_left, h1, Var_eq, h1]
    ring
  rw [Finset.sum_congr rfl fun i _ => hone i, Finset.sum_add_distrib, ← Finset.mul_sum]
  simp only [mul_pow, Finset.sum_const, Finset.card_univ, Fintype.card_fin, nsmul_eq_mul]
  rw [← Finset.mul_sum]
  ring

/-- The second moment of `b + c Σ a_i s_i` for uniform words, without reduction. -/
theorem E_unreduced_sq {w : Nat} (hw : 0 < w) (dk : Dist κ) (X : κ → ℚ) (M : Nat) (c : ℚ) (hc : c ^ 2 = 1) :
    ((uniform (BitVec w)).prod (iid M ((uniform (BitVec w)).prod dk))).E
      (fun ω => ((ω.1.toInt : ℚ) + ∑ i, c * (((ω.2 i).1.toInt : ℚ) * X (ω.2 i).2)) ^ 2) =
    (2 ^ (2 * w) - 1) / 12 * (1 + M * (dk.Var X + dk.E X ^ 2)) + M / 4 * dk.Var X +
      1 / 4 * (1 + c * (M * dk.E X)) ^ 2 := by
  have hE1 : ((uniform (BitVec w)).prod dk).E (fun x => c * ((x.1.toInt : ℚ) * X x.2)) = -(1 / 2) * c * dk.E X := by
    rw [E_mul_left, E_prod_mul (uniform (BitVec w)) dk (fun x => (x.toInt : ℚ)) X, E_toInt hw]; ring
  have hV1 : ((uniform (BitVec w)).prod dk).Var (fun x => c * ((x.1.toInt : ℚ) * X x.2)) =
      (2 ^ (2 * w) + 2) / 12 * (dk.Var X + dk.E X ^ 2) - 1 / 4 * dk.E X ^ 2 := by
    rw [Var_cmul, hc, Var_eq, E_prod_mul (uniform (BitVec w)) dk (fun x => (x.toInt : ℚ)) X,
      E_congr _ (Y := fun x : BitVec w × κ => (x.1.toInt : ℚ) ^ 2 * X x.2 ^ 2) (fun x => by ring),
      E_prod_mul (uniform (BitVec w)) dk (fun x => (x.toInt : ℚ) ^ 2) (fun x => X x ^ 2), E_toInt hw, E_toInt_sq hw,
      Var_eq dk]
    ring
  have hb : (uniform (BitVec w)).Var (fun x => (x.toInt : ℚ)) = (2 ^ (2 * w) - 1) / 12 := by
    rw [Var_eq, E_toInt hw, E_toInt_sq hw]; ring
  have hV := Var_prod_add (uniform (BitVec w)) (iid M ((uniform (BitVec w)).prod dk)) (fun x => (x.toInt : ℚ))
    (fun z => ∑ i, c * (((z i).1.toInt : ℚ) * X (z i).2))
  have hs : (iid M ((uniform (BitVec w)).prod dk)).Var (fun z => ∑ i, c * (((z i).1.toInt : ℚ) * X (z i).2)) = _ :=
    Var_pi_sum (fun _ : Fin M => (uniform (BitVec w)).prod dk) (fun _ x => c * ((x.1.toInt : ℚ) * X x.2))
  have hsE : (iid M ((uniform (BitVec w)).prod dk)).E (fun z => ∑ i, c * (((z i).1.toInt : ℚ) * X (z i).2)) =
      M * (-(1 / 2) * c * dk.E X) := by
    rw [E_sum, Finset.sum_congr rfl fun i _ => by
      rw [iid, E_pi_one (fun _ => (uniform (BitVec w)).prod dk) i (fun x => c * ((x.1.toInt : ℚ) * X x.2)), hE1]]
    simp
  have hE : ((uniform (BitVec w)).prod (iid M ((uniform (BitVec w)).prod dk))).E
      (fun ω => (ω.1.toInt : ℚ) + ∑ i, c * (((ω.2 i).1.toInt : ℚ) * X (ω.2 i).2)) =
      -(1 / 2) + M * (-(1 / 2) * c * dk.E X) := by
    rw [E_add, E_prod_fst _ _ (fun x : BitVec w => (x.toInt : ℚ)), E_prod_snd _ _
      (fun z : Fin M → BitVec w × κ => ∑ i, c * (((z i).1.toInt : ℚ) * X (z i).2)), hsE, E_toInt hw]
    ring
  have h0 := Var_eq ((uniform (BitVec w)).prod (iid M ((uniform (BitVec w)).prod dk)))
    (fun ω => (ω.1.toInt : ℚ) + ∑ i, c * (((ω.2 i).1.toInt : ℚ) * X (ω.2 i).2))
  rw [hV, hE, hb] at h0
  rw [hs] at h0
  simp only [hV1, Finset.sum_const, Finset.card_univ, Fintype.card_fin, nsmul_eq_mul] at h0
  have h5 := eq_add_of_sub_eq h0.symm
  rw [h5]
  ring

/-- C102, tensor product of ciphertexts with noise: what the noises of the factors add to the estimate is the variance of
the noise of the product of the two messages with their noises, when the coefficients of the messages have the largest
absolute value (an upper bound otherwise), and the noises multiplied by the numbers `b + Σ a_i s_i` computed without
reduction. -/
theorem C102_tensor_noise {α β : Type} [Fintype α] [Fintype β] {w : Nat} (hw : 0 < w) (K : KeyDispersion) (dk : Dist κ)
    (X : κ → ℚ) (hK : Describes K dk X) (N k n : Nat) (hn : n < N) (D1 D2 max1 max2 : ℚ) (m1 m2 : Fin N → ℚ)
    (hm1 : ∀ i, |m1 i| ≤ max1) (hm2 : ∀ i, |m2 i| ≤ max2)
    (d1 : Dist α) (d2 : Dist β) (e1 : α → ℚ) (e2 : β → ℚ) (h1 : d1.E e1 = 0) (h2 : d2.E e2 = 0) (V W add : ℚ)
    (hV : V = ((iid N d1).prod (iid N d2)).Var (productNoise n D1 D2 (min D1 D2) m1 m2 e1 e2))
    (hW : W = ((uniform (BitVec w)).prod (iid (k * N) ((uniform (BitVec w)).prod dk))).E
      (fun ω => ((ω.1.toInt : ℚ) + ∑ i, ((ω.2 i).1.toInt : ℚ) * X (ω.2 i).2) ^ 2))
    (hadd : add = modVar (tensorNoise K N k (ofModVar (d1.Var e1) w) (ofModVar (d2.Var e2) w) D1 D2 max1 max2 w) w -
      modVar (tensorNoise K N k 0 0 D1 D2 max1 max2 w) w) :
    V + N * (d1.Var e1 + d2.Var e2) * W / min D1 D2 ^ 2 ≤ add ∧
    ((∀ i, |m1 i| = max1) → (∀ i, |m2 i| = max2) →
      V + N * (d1.Var e1 + d2.Var e2) * W / min D1 D2 ^ 2 = add) := by
  have hW' : W = (2 ^ (2 * w) - 1) / 12 * (1 + (k * N : Nat) * (dk.Var X + dk.E X ^ 2)) + (k * N : Nat) / 4 * dk.Var X +
      1 / 4 * (1 + 1 * ((k * N : Nat) * dk.E X)) ^ 2 := by
    rw [hW, ← E_unreduced_sq hw dk X (k * N) 1 (by norm_num)]
    simp only [one_mul]
  have hadd' : add = N / min D1 D2 ^ 2 * (d1.Var e1 * D2 ^ 2 * max2 ^ 2 + d2.Var e2 * D1 ^ 2 * max1 ^ 2 +
      d1.Var e1 * d2.Var e2) + N * (d1.Var e1 + d2.Var e2) * W / min D1 D2 ^ 2 := by
    rw [hadd, tensorNoise, tensorNoise]
    simp only [modVar_ofModVar, square]
    rw [show modVar 0 w = 0 by simp [modVar], hK.varCoef w, hK.expCoef, hW']
    push_cast
    ring
  rw [Var_productNoise n hn D1 D2 _ m1 m2 d1 d2 e1 e2 h1 h2] at hV
  have sq_le : ∀ (m : Fin N → ℚ) (M : ℚ), (∀ i, |m i| ≤ M) → ∑ i, m i ^ 2 ≤ N * M ^ 2 := by
    intro m M h
    calc ∑ i, m i ^ 2 ≤ ∑ _i : Fin N, M ^ 2 := Finset.sum_le_sum fun i _ => by
          rw [← sq_abs]; exact pow_le_pow_left₀ (abs_nonneg _) (h i) 2
      _ = N * M ^ 2 := by simp
  have sq_eq : ∀ (m : Fin N → ℚ) (M : ℚ), (∀ i, |m i| = M) → ∑ i, m i ^ 2 = N * M ^ 2 := by
    intro m M h
    calc ∑ i, m i ^ 2 = ∑ _i : Fin N, M ^ 2 := Finset.sum_congr rfl fun i _ => by rw [← sq_abs, h i]
      _ = N * M ^ 2 := by simp
  have var_nonneg : ∀ {γ : Type} [Fintype γ] (d : Dist γ) (Y : γ → ℚ), 0 ≤ d.Var Y := by
    intro γ _ d Y
    rw [Var, E]
    exact Finset.sum_nonneg fun a _ => mul_nonneg (d.nonneg a) (sq_nonneg _)
  refine ⟨?_, fun a1 a2 => ?_⟩
  · rw [hV, hadd']
    have b1 := mul_le_mul_of_nonneg_left (mul_le_mul_of_nonneg_left (sq_le m1 max1 hm1) (sq_nonneg D1)) (var_nonneg d2 e2)
    have b2 := mul_le_mul_of_nonneg_left (mul_le_mul_of_nonneg_left (sq_le m2 max2 hm2) (sq_nonneg D2)) (var_nonneg d1 e1)
    have b3 : (0 : ℚ) ≤ (min D1 D2 ^ 2)⁻¹ := inv_nonneg.2 (sq_nonneg _)
    have b4 := mul_le_mul_of_nonneg_right (add_le_add b1 b2) b3
    rw [div_eq_mul_inv, div_eq_mul_inv, div_eq_mul_inv]
    linarith
  · rw [hV, hadd', sq_eq m1 max1 a1, sq_eq m2 max2 a2]
    ring

/-- C102: the phase is `b - Σ a_i s_i`, not the sum taken by the tensor product estimate: for a key with a positive mean the
factor of the noises is smaller than the one of the estimate. -/
theorem C102_tensor_sign_violated {w : Nat} (hw : 0 < w) (dk : Dist κ) (X : κ → ℚ) (hX : 0 < dk.E X) (M : Nat) (hM : 0 < M) :
    ((uniform (BitVec w)).prod (iid M ((uniform (BitVec w)).prod dk))).E
      (fun ω => ((ω.1.toInt : ℚ) - ∑ i, ((ω.2 i).1.toInt : ℚ) * X (ω.2 i).2) ^ 2) <
    ((uniform (BitVec w)).prod (iid M ((uniform (BitVec w)).prod dk))).E
      (fun ω => ((ω.1.toInt : ℚ) + ∑ i, ((ω.2 i).1.toInt : ℚ) * X (ω.2 i).2) ^ 2) := by
  have h1 := E_unreduced_sq hw dk X M 1 (by norm_num)
  have h2 := E_unreduced_sq hw dk X M (-1) (by norm_num)
  simp only [one_mul, neg_mul, Finset.sum_neg_distrib, ← sub_eq_add_neg] at h1 h2
  rw [h1, h2]
  have : 0 < (M : ℚ) * dk.E X := mul_pos (by exact_mod_cast hM) hX
  nlinarith

-- the hypotheses hold for binary keys, messages of coefficients 1 and -1 and noises -1, 0, 1
example : 0 < (uniform Bool).E bitValue ∧ (∀ i : Fin 4, |(![1, -1, 1, 1] : Fin 4 → ℚ) i| = 1) ∧
    (uniform (Fin 3)).E (fun t => (t.val : ℚ) - 1) = 0 := by
  refine ⟨?_, ?_, ?_⟩
  · rw [← C96_binary.expCoef, binaryKey]; norm_num
  · intro i; fin_cases i <;> simp
  · rw [E, uniform]
    simp [Fin.sum_univ_succ]

end Verif.Npe
