import Verif.Npe.Round
import Verif.Npe.LinearProps
import Verif.Npe.KeyProps
import Verif.Pbs.Switch
/-
C97: the estimator of the modulus switching, on the modulus switch of the bootstrap.
-/
namespace Verif.Npe
open Dist Verif.BV Verif.Decomp
open Verif.Pbs (switchDegree)

variable {w n : Nat} {α : Type} [Fintype α]

/-! ### Specification -/

/-- The body of an encryption of `m` under the binary key `s` with mask `a` and noise `e`. -/
def lweBody (s : Fin n → Bool) (m : BitVec w) (e : Int) (a : Fin n → BitVec w) : BitVec w :=
  (∑ i, if s i then a i else 0) + (m + (e : BitVec w))

/-- The noise after the switch of every word of the ciphertext to `2N = 2^(logN+1)` values: the phase of
the switched ciphertext, scaled back to the torus, minus the message, as a signed integer. -/
def switchedNoise (logN : Nat) (s : Fin n → Bool) (m : BitVec w) (e : Int) (a : Fin n → BitVec w) : Int :=
  ((((switchDegree (lweBody s m e a) logN : Int) - ∑ i, if s i then (switchDegree (a i) logN : Int) else 0) *
    2 ^ (w - logN - 1) : Int) - m : BitVec w).toInt

/-- The number of ones of a key. -/
def ones (s : Fin n → Bool) : ℚ := ∑ i, bitValue (s i)

/-! ### Helper lemmas -/

theorem switchDegree_round (logN : Nat) (hN : logN + 2 < w) (x : BitVec w) :
    (switchDegree x logN : Int) * 2 ^ (w - logN - 1) = x.toNat - roundErr (logN + 1) 1 x := by
  have hv : ValidParams w (logN + 1) 1 := ⟨by omega, by omega, by omega⟩
  rw [roundErr_eq _ _ hv, Pbs.switchDegree_eq x logN hN, Pbs.nearest_eq logN (by omega)]
  rw [show w - (logN + 1) * 1 = w - logN - 1 by omega, show w - logN - 1 - 1 = w - logN - 2 by omega]
  have hd := Nat.div_add_mod (x.toNat + 2 ^ (w - logN - 2)) (2 ^ (w - logN - 1))
  have := congrArg (fun z : Nat => (z : Int)) hd
  push_cast at this ⊢
  linarith

/-- The noise as an integer. -/
def switchInt (logN : Nat) (s : Fin n → Bool) (m : BitVec w) (e : Int) (a : Fin n → BitVec w) : Int :=
  e - roundErr (logN + 1) 1 (lweBody s m e a) +
    ∑ i, if s i then roundErr (logN + 1) 1 (a i) else 0

theorem switch_cast (logN : Nat) (hN : logN + 2 < w) (s : Fin n → Bool) (m : BitVec w) (e : Int)
    (a : Fin n → BitVec w) :
    ((((switchDegree (lweBody s m e a) logN : Int) -
      ∑ i, if s i then (switchDegree (a i) logN : Int) else 0) * 2 ^ (w - logN - 1) : Int) - m : BitVec w) =
      ((switchInt logN s m e a : Int) : BitVec w) := by
  rw [sub_mul, switchDegree_round logN hN, Finset.sum_mul]
  have h1 : ∀ i : Fin n, (if s i then (switchDegree (a i) logN : Int) else 0) * 2 ^ (w - logN - 1) =
      (if s i then ((a i).toNat : Int) else 0) - (if s i then roundErr (logN + 1) 1 (a i) else 0) := by
    intro i; split
    · exact switchDegree_round logN hN (a i)
    · simp
  rw [Finset.sum_congr rfl fun i _ => h1 i, Finset.sum_sub_distrib, switchInt]
  push_cast
  have h2 : (∑ i : Fin n, ((if s i then ((a i).toNat : Int) else 0 : Int) : BitVec w)) =
      ∑ i, if s i then a i else 0 := by
    refine Finset.sum_congr rfl fun i _ => ?_
    split
    · simp
    · simp
  have h3 : (((lweBody s m e a).toNat : Nat) : BitVec w) =
      (∑ i, if s i then a i else 0) + (m + (e : BitVec w)) := by rw [natCast_toNat]; rfl
  have h2' : (∑ i : Fin n, (if s i then (((a i).toNat : Nat) : BitVec w) else 0)) =
      ∑ i, if s i then a i else 0 := by
    refine Finset.sum_congr rfl fun i _ => ?_
    rw [natCast_toNat]
  simp only [Int.cast_ite, Int.cast_natCast, Int.cast_zero] at *
  rw [h2', h3]
  ring

theorem roundErr_abs (logN : Nat) (hN : logN + 2 < w) (x : BitVec w) :
    |roundErr (logN + 1) 1 x| ≤ 2 ^ (w - logN - 2) := by
  have hv : ValidParams w (logN + 1) 1 := ⟨by omega, by omega, by omega⟩
  have h := closest_signed (logN + 1) 1 hv x
  rw [show w - (logN + 1) * 1 - 1 = w - logN - 2 by omega] at h
  rw [abs_le]
  exact ⟨h.2.1, le_of_lt h.2.2⟩

theorem switchInt_abs (logN : Nat) (hN : logN + 2 < w) (s : Fin n → Bool) (m : BitVec w) (e : Int)
    (a : Fin n → BitVec w) :
    |switchInt logN s m e a| ≤ |e| + (n + 1) * 2 ^ (w - logN - 2) := by
  have h1 : |∑ i, if s i then roundErr (logN + 1) 1 (a i) else 0| ≤ n * 2 ^ (w - logN - 2) := by
    refine (Finset.abs_sum_le_sum_abs _ _).trans ?_
    refine (Finset.sum_le_sum (g := fun _ => (2 ^ (w - logN - 2) : Int)) fun i _ => ?_).trans ?_
    · split
      · exact roundErr_abs logN hN (a i)
      · simp
    · simp
  have h2 := roundErr_abs logN hN (lweBody s m e a)
  rw [switchInt]
  refine (abs_add_le _ _).trans ?_
  have h3 := abs_sub e (roundErr (logN + 1) 1 (lweBody s m e a))
  linarith

theorem switchedNoise_eq (logN : Nat) (hN : logN + 2 < w) (s : Fin n → Bool) (m : BitVec w) (e : Int)
    (a : Fin n → BitVec w) (hb : |e| + (n + 1) * 2 ^ (w - logN - 2) < 2 ^ (w - 1)) :
    switchedNoise logN s m e a = switchInt logN s m e a := by
  rw [switchedNoise, switch_cast logN hN]
  have h := switchInt_abs logN hN s m e a
  have h' := abs_le.1 (h.trans (le_of_lt hb))
  have h2 := le_abs_self (switchInt logN s m e a)
  exact toInt_cast_of_bounds _ h'.1 (by linarith) (by omega)

/-! ### Decorrelation -/

theorem E_iid_uniform_comp {β : Type} [Fintype β] [Nonempty β] (φ : (Fin n → β) → (Fin n → β))
    (hφ : Function.Bijective φ) (F : (Fin n → β) → ℚ) :
    (iid n (uniform β)).E (fun a => F (φ a)) = (iid n (uniform β)).E F := by
  simp only [E, iid, Dist.pi, uniform]
  rw [← hφ.sum_comp (fun a => (∏ _i : Fin n, 1 / (Fintype.card β : ℚ)) * F a)]

/-- Replacing one mask element that the key selects by the body. -/
def swapBody (s : Fin n → Bool) (c : BitVec w) (j : Fin n) (a : Fin n → BitVec w) : Fin n → BitVec w :=
  Function.update a j ((∑ i, if s i then a i else 0) + c)

theorem swapBody_bijective (s : Fin n → Bool) (c : BitVec w) (j : Fin n) (hj : s j = true) :
    Function.Bijective (swapBody s c j) := by
  rw [← Finite.injective_iff_bijective]
  intro a a' h
  have hk : ∀ k, k ≠ j → a k = a' k := by
    intro k hk
    have := congrFun h k
    simpa [swapBody, Function.update_of_ne hk] using this
  have hb := congrFun h j
  simp only [swapBody, Function.update_self] at hb
  have hb' := add_right_cancel hb
  rw [← Finset.add_sum_erase _ _ (Finset.mem_univ j),
    ← Finset.add_sum_erase _ (fun i => if s i then a' i else 0) (Finset.mem_univ j),
    Finset.sum_congr rfl (fun k hk' => by rw [hk k (by simpa using hk')])] at hb'
  have := add_right_cancel hb'
  simp only [hj, if_true] at this
  funext k
  by_cases h : k = j
  · rw [h, this]
  · exact hk k h

theorem E_body (s : Fin n → Bool) (c : BitVec w) (j : Fin n) (hj : s j = true) (g : BitVec w → ℚ) :
    (iid n (uniform (BitVec w))).E (fun a => g ((∑ i, if s i then a i else 0) + c)) =
      (uniform (BitVec w)).E g := by
  have h := E_iid_uniform_comp _ (swapBody_bijective s c j hj) (fun a => g (a j))
  rw [iid, E_pi_one] at h
  rw [← h]
  exact E_congr _ fun a => by simp [swapBody]

theorem E_body_mask (s : Fin n → Bool) (c : BitVec w) (i j : Fin n) (hij : i ≠ j) (hj : s j = true)
    (f g : BitVec w → ℚ) :
    (iid n (uniform (BitVec w))).E (fun a => f (a i) * g ((∑ i, if s i then a i else 0) + c)) =
      (uniform (BitVec w)).E f * (uniform (BitVec w)).E g := by
  have h := E_iid_uniform_comp _ (swapBody_bijective s c j hj) (fun a => f (a i) * g (a j))
  rw [iid, E_pi_two _ i j hij] at h
  rw [← h]
  exact E_congr _ fun a => by simp [swapBody, Function.update_of_ne hij]

section key
variable (logN : Nat) (hN : logN + 2 < w) (s : Fin n → Bool) (c : BitVec w)

/-- The part of the noise that comes from the rounding. -/
def roundPart (logN : Nat) (s : Fin n → Bool) (c : BitVec w) (a : Fin n → BitVec w) : ℚ :=
  -(roundErr (logN + 1) 1 ((∑ i, if s i then a i else 0) + c) : ℚ) +
    ∑ i, bitValue (s i) * (roundErr (logN + 1) 1 (a i) : ℚ)

include hN

theorem E_round1 : (uniform (BitVec w)).E (fun x => (roundErr (logN + 1) 1 x : ℚ)) = -1 / 2 :=
  E_roundErr _ _ ⟨by omega, by omega, by omega⟩

theorem E_round2 : (uniform (BitVec w)).E (fun x => (roundErr (logN + 1) 1 x : ℚ) ^ 2) =
    ((2 ^ (w - logN - 1) : ℚ) ^ 2 + 2) / 12 := by
  rw [E_roundErr_sq _ _ ⟨by omega, by omega, by omega⟩, show w - (logN + 1) * 1 = w - logN - 1 by omega]

theorem E_maskSum : (iid n (uniform (BitVec w))).E
    (fun a => ∑ i, bitValue (s i) * (roundErr (logN + 1) 1 (a i) : ℚ)) = ones s * (-1 / 2) := by
  rw [E_sum, ones, Finset.sum_mul]
  refine Finset.sum_congr rfl fun i _ => ?_
  rw [E_mul_left, iid, E_pi_one _ i (fun x => (roundErr (logN + 1) 1 x : ℚ)), E_round1 logN hN]

theorem Var_maskSum : (iid n (uniform (BitVec w))).Var
    (fun a => ∑ i, bitValue (s i) * (roundErr (logN + 1) 1 (a i) : ℚ)) =
      ones s * (((2 ^ (w - logN - 1) : ℚ) ^ 2 - 1) / 12) := by
  rw [iid, Var_pi_sum (fun _ => uniform (BitVec w))
    (fun i x => bitValue (s i) * (roundErr (logN + 1) 1 x : ℚ)), ones, Finset.sum_mul]
  refine Finset.sum_congr rfl fun i _ => ?_
  rw [Var_scale, Var_eq, E_round1 logN hN, E_round2 logN hN]
  have : bitValue (s i) ^ 2 = bitValue (s i) := by rw [bitValue]; split <;> norm_num
  rw [this]; ring

theorem E_roundPart (j : Fin n) (hj : s j = true) :
    (iid n (uniform (BitVec w))).E (roundPart logN s c) = (1 - ones s) / 2 := by
  have e : roundPart logN s c = fun a => -(roundErr (logN + 1) 1 ((∑ i, if s i then a i else 0) + c) : ℚ) +
    ∑ i, bitValue (s i) * (roundErr (logN + 1) 1 (a i) : ℚ) := rfl
  rw [e, E_add, E_neg, E_body s c j hj (fun x => (roundErr (logN + 1) 1 x : ℚ)), E_round1 logN hN,
    E_maskSum logN hN]
  ring

theorem E_roundPart_sq (hs : ∃ i j, i ≠ j ∧ s i = true ∧ s j = true) :
    (iid n (uniform (BitVec w))).E (fun a => roundPart logN s c a ^ 2) =
      ((1 - ones s) / 2) ^ 2 + (ones s + 1) * (((2 ^ (w - logN - 1) : ℚ) ^ 2 - 1) / 12) := by
  obtain ⟨i0, j0, hij, hi0, hj0⟩ := hs
  have hS := Var_maskSum (w := w) logN hN s
  rw [Var_eq, E_maskSum logN hN] at hS
  have hR := E_body s c j0 hj0 (fun x => (roundErr (logN + 1) 1 x : ℚ) ^ 2)
  have hRS : (iid n (uniform (BitVec w))).E (fun a =>
      (roundErr (logN + 1) 1 ((∑ i, if s i then a i else 0) + c) : ℚ) *
        ∑ i, bitValue (s i) * (roundErr (logN + 1) 1 (a i) : ℚ)) = ones s / 4 := by
    rw [E_congr _ (Y := fun a => ∑ i, bitValue (s i) * ((roundErr (logN + 1) 1 (a i) : ℚ) *
      (roundErr (logN + 1) 1 ((∑ i, if s i then a i else 0) + c) : ℚ)))
      (fun a => by rw [Finset.mul_sum]; exact Finset.sum_congr rfl fun i _ => by ring), E_sum, ones,
      Finset.sum_div]
    refine Finset.sum_congr rfl fun i _ => ?_
    have : ∃ j, i ≠ j ∧ s j = true := by
      by_cases h : i = i0
      · exact ⟨j0, by rw [h]; exact hij, hj0⟩
      · exact ⟨i0, h, hi0⟩
    obtain ⟨j, hj, hsj⟩ := this
    rw [E_mul_left, E_body_mask s c i j hj hsj (fun x => (roundErr (logN + 1) 1 x : ℚ))
      (fun x => (roundErr (logN + 1) 1 x : ℚ)), E_round1 logN hN]
    ring
  rw [E_congr _ (Y := fun a =>
      (roundErr (logN + 1) 1 ((∑ i, if s i then a i else 0) + c) : ℚ) ^ 2 +
      (-2) * ((roundErr (logN + 1) 1 ((∑ i, if s i then a i else 0) + c) : ℚ) *
        ∑ i, bitValue (s i) * (roundErr (logN + 1) 1 (a i) : ℚ)) +
      (∑ i, bitValue (s i) * (roundErr (logN + 1) 1 (a i) : ℚ)) ^ 2)
    (fun a => by rw [roundPart]; ring), E_add, E_add, E_mul_left, hRS, hR, E_round2 logN hN]
  linarith

end key

/-! ### The property -/

/-- C97. For every binary key with at least two ones: over uniform masks and independent noises `e`, the
noise after the modulus switch has expectation `E[e] + (1 - h)/2` and variance
`Var[e] + (h + 1)(δ² - 1)/12`, where `h` is the number of ones and `δ = 2^(w - logN - 1)` the distance
between two switched values. -/
theorem C97_switch_key (logN : Nat) (hN : logN + 2 < w) (s : Fin n → Bool)
    (hs : ∃ i j, i ≠ j ∧ s i = true ∧ s j = true) (m : BitVec w) (d : Dist α) (e : α → Int)
    (hb : ∀ x, |e x| + (n + 1) * 2 ^ (w - logN - 2) < 2 ^ (w - 1)) :
    (d.prod (iid n (uniform (BitVec w)))).E (fun ω => (switchedNoise logN s m (e ω.1) ω.2 : ℚ)) =
      d.E (fun x => (e x : ℚ)) + (1 - ones s) / 2 ∧
    (d.prod (iid n (uniform (BitVec w)))).Var (fun ω => (switchedNoise logN s m (e ω.1) ω.2 : ℚ)) =
      d.Var (fun x => (e x : ℚ)) + (ones s + 1) * (((2 ^ (w - logN - 1) : ℚ) ^ 2 - 1) / 12) := by
  have hN' : ∀ x a, (switchedNoise logN s m (e x) a : ℚ) =
      (e x : ℚ) + roundPart logN s (m + (e x : BitVec w)) a := by
    intro x a
    rw [switchedNoise_eq logN hN s m (e x) a (hb x), switchInt, roundPart, lweBody]
    push_cast
    have : (∑ i : Fin n, ((if s i then roundErr (logN + 1) 1 (a i) else 0 : Int) : ℚ)) =
        ∑ i, bitValue (s i) * (roundErr (logN + 1) 1 (a i) : ℚ) :=
      Finset.sum_congr rfl fun i _ => by rw [bitValue]; split <;> simp
    push_cast at this
    rw [this]; ring
  obtain ⟨i, -, -, hi, -⟩ := id hs
  have hE : (d.prod (iid n (uniform (BitVec w)))).E
      (fun ω => (switchedNoise logN s m (e ω.1) ω.2 : ℚ)) =
      d.E (fun x => (e x : ℚ)) + (1 - ones s) / 2 := by
    rw [E_prod, E_congr d (Y := fun x => (e x : ℚ) + (1 - ones s) / 2) (fun x => by
      rw [E_congr _ (hN' x), E_add, E_const]
      exact congrArg _ (E_roundPart logN hN s _ i hi)), E_add, E_const]
  refine ⟨hE, ?_⟩
  rw [Var_eq, hE, E_prod, E_congr d (Y := fun x => (e x : ℚ) ^ 2 + (1 - ones s) * (e x : ℚ) +
      (((1 - ones s) / 2) ^ 2 + (ones s + 1) * (((2 ^ (w - logN - 1) : ℚ) ^ 2 - 1) / 12))) (fun x => by
      rw [E_congr _ (Y := fun a => (e x : ℚ) ^ 2 +
        2 * (e x : ℚ) * roundPart logN s (m + (e x : BitVec w)) a +
        roundPart logN s (m + (e x : BitVec w)) a ^ 2) (fun a => by rw [hN' x a]; ring), E_add, E_add,
        E_const, E_mul_left, E_roundPart_sq logN hN s _ hs]
      have := E_roundPart logN hN s (m + (e x : BitVec w)) i hi
      rw [this]
      ring), E_add, E_add, E_const, E_mul_left, Var_eq]
  ring

/-- C97. The estimate for the modulus switching is, for a random binary key, the expectation of that
variance plus the variance of that expectation: the total variance. -/
theorem C97_switch_estimate (n logN : Nat) (hN : logN + 2 < w) (v : ℚ) :
    modVar (modulusSwitchingNoise n (logN + 1) v w) w =
      (iid n (uniform Bool)).E
        (fun s => modVar v w + (ones s + 1) * (((2 ^ (w - logN - 1) : ℚ) ^ 2 - 1) / 12)) +
      (iid n (uniform Bool)).Var (fun s => (1 - ones s) / 2) := by
  have m1 : (uniform Bool).E bitValue = 1 / 2 := by rw [E_eq_mom, mom_bit 1 (by omega)]
  have hE : (iid n (uniform Bool)).E ones = n / 2 := by
    have : (ones : (Fin n → Bool) → ℚ) = fun s => ∑ i, bitValue (s i) := rfl
    rw [this, E_sum, Finset.sum_congr rfl fun i _ => by rw [iid, E_pi_one, m1]]
    simp; ring
  have hV : (iid n (uniform Bool)).Var ones = n / 4 := by
    have : (ones : (Fin n → Bool) → ℚ) = fun s => ∑ i, bitValue (s i) := rfl
    rw [this, iid, Var_pi_sum (fun _ => uniform Bool) (fun _ => bitValue)]
    rw [Finset.sum_congr rfl fun i _ => by
      rw [Var_eq_mom, mom_bit 1 (by omega), mom_bit 2 (by omega)]]
    simp; ring
  have hV' : (iid n (uniform Bool)).Var (fun s => (1 - ones s) / 2) = n / 16 := by
    rw [Var_eq] at hV ⊢
    rw [E_congr _ (Y := fun s => 1 / 4 + (-1 / 2) * ones s + 1 / 4 * ones s ^ 2) (fun s => by ring),
      E_congr (iid n (uniform Bool)) (X := fun s => (1 - ones s) / 2)
        (Y := fun s => 1 / 2 + (-1 / 2) * ones s) (fun s => by ring),
      E_add, E_add, E_add, E_const, E_const, E_mul_left, E_mul_left, hE]
    rw [hE] at hV
    linarith
  rw [hV', E_congr _ (Y := fun s => (modVar v w + ((2 ^ (w - logN - 1) : ℚ) ^ 2 - 1) / 12) +
    (((2 ^ (w - logN - 1) : ℚ) ^ 2 - 1) / 12) * ones s) (fun s => by ring), E_add, E_const, E_mul_left,
    hE, modulusSwitchingNoise, modVar_ofModVar]
  have hp : (2 ^ (2 * w) : ℚ) = (2 ^ (w - logN - 1) : ℚ) ^ 2 * square (2 ^ (logN + 1)) := by
    rw [square, ← sq, ← mul_pow, ← pow_add, show w - logN - 1 + (logN + 1) = w by omega, ← pow_mul]
    congr 1; omega
  have hs : square (2 ^ (logN + 1)) ≠ (0 : ℚ) := by rw [square]; positivity
  rw [hp]
  field_simp
  ring

-- the parameters of a 32-bit bootstrap: N = 1024, keys of 500 bits, noises of absolute value 2^15
example : ∀ x : Fin 2, |(![2 ^ 15, -(2 ^ 15)] : Fin 2 → Int) x| + ((500 : Nat) + 1) * 2 ^ (32 - 10 - 2) <
    2 ^ (32 - 1) := by decide

end Verif.Npe
