import Verif.Npe.Model2
import Verif.Npe.ExtProps
/-
C102: the remaining noise estimators: number of noise bits, most significant bits, and the rounding term of the
relinearization.
-/
namespace Verif.Npe
open Verif.Decomp Verif.BV Verif.Npe.Dist

variable {w n : Nat} {α κ : Type} [Fintype α] [Fintype κ]

/-! ### Number of noise bits -/

theorem noiseBits_le (v : ℚ) (q : Nat) (hv : 0 ≤ v) (m : Nat) :
    noiseBits v q ≤ m ↔ 16 * modVar v q ≤ 4 ^ m := by
  have hm : 0 ≤ modVar v q := mul_nonneg hv (by positivity)
  rw [noiseBits]
  rcases hm.eq_or_lt with h0 | hpos
  · rw [← h0]
    simp
  · have hR : (0 : ℝ) < ((modVar v q : ℚ) : ℝ) := by exact_mod_cast hpos
    have hs := Real.sqrt_pos.2 hR
    have hs4 : 0 < Real.sqrt (modVar v q : ℚ) * 4 := by positivity
    have key : Real.logb 2 (Real.sqrt (modVar v q : ℚ) * 4) ≤ m ↔ 16 * modVar v q ≤ 4 ^ m := by
      rw [Real.logb_le_iff_le_rpow (by norm_num) hs4, Real.rpow_natCast]
      have h1 : (0 : ℝ) ≤ 2 ^ m := by positivity
      rw [← sq_le_sq₀ hs4.le h1, mul_pow, Real.sq_sqrt hR.le, ← pow_mul, mul_comm m 2, pow_mul]
      rw [show ((2 : ℝ) ^ 2) = 4 by norm_num, mul_comm]
      norm_num
      exact_mod_cast Iff.rfl
    split
    · rename_i hneg
      refine ⟨fun _ => key.1 (hneg.le.trans (Nat.cast_nonneg m)), fun _ => Nat.zero_le _⟩
    · rw [Nat.ceil_le, key]

/-- C102. The number of noise bits is the least `m` with `4 σ ≤ 2^m` (`σ² ` is the variance in units of the
last place). -/
theorem C102_noise_bits (v : ℚ) (q : Nat) (hv : 0 ≤ v) :
    16 * modVar v q ≤ 4 ^ noiseBits v q ∧ ∀ m, m < noiseBits v q → 4 ^ m < 16 * modVar v q := by
  refine ⟨(noiseBits_le v q hv _).1 le_rfl, fun m hm => ?_⟩
  by_contra h
  exact absurd ((noiseBits_le v q hv m).2 (not_lt.1 h)) (not_le.2 hm)

/-- C102. A centred noise of any distribution reaches beyond the estimated number of bits with probability at
most 1/16. -/
theorem C102_noise_tail (d : Dist α) (X : α → Int) (q : Nat) (h0 : d.E (fun x => (X x : ℚ)) = 0) :
    d.E (fun x => if (2 ^ noiseBits (ofModVar (d.Var fun x => (X x : ℚ)) q) q : Int) ≤ |X x| then 1 else 0) ≤
      1 / 16 := by
  set V := d.Var fun x => (X x : ℚ) with hV
  set m := noiseBits (ofModVar V q) q
  have hVar : 0 ≤ V := Finset.sum_nonneg fun x _ => mul_nonneg (d.nonneg x) (sq_nonneg _)
  have hm : 16 * V ≤ 4 ^ m := by
    have := (C102_noise_bits (ofModVar V q) q (div_nonneg hVar (by positivity))).1
    rwa [modVar_ofModVar] at this
  have h4 : (0 : ℚ) < 4 ^ m := by positivity
  have hle : 4 ^ m * d.E (fun x => if (2 ^ m : Int) ≤ |X x| then 1 else 0) ≤ V := by
    rw [hV, Var_eq, h0, ← E_mul_left]
    simp only [ne_eq, OfNat.ofNat_ne_zero, not_false_eq_true, zero_pow, sub_zero]
    refine Finset.sum_le_sum fun x _ => mul_le_mul_of_nonneg_left ?_ (d.nonneg x)
    show (4 ^ m * if (2 ^ m : Int) ≤ |X x| then 1 else 0 : ℚ) ≤ (X x : ℚ) ^ 2
    split
    · rename_i h
      have h1 : ((2 ^ m : Int) : ℚ) ≤ |(X x : ℚ)| := by exact_mod_cast h
      push_cast at h1
      rw [mul_one, show (4 : ℚ) ^ m = (2 ^ m) ^ 2 by rw [← pow_mul, mul_comm m 2, pow_mul]; norm_num,
        ← sq_abs (X x : ℚ)]
      exact pow_le_pow_left₀ (by positivity) h1 2
    · simpa using sq_nonneg (X x : ℚ)
  have : 4 ^ m * d.E (fun x => if (2 ^ m : Int) ≤ |X x| then 1 else 0) ≤ 4 ^ m * (1 / 16) := by linarith
  exact le_of_mul_le_mul_left this h4

-- a noise of ±100 in 64 bits: 9 bits
example : noiseBits (ofModVar 10000 64) 64 = 9 := by
  have h : ∀ m, noiseBits (ofModVar 10000 64) 64 ≤ m ↔ (16 * 10000 : ℚ) ≤ 4 ^ m := by
    intro m
    have := noiseBits_le (ofModVar 10000 64) 64 (by norm_num [ofModVar]) m
    rwa [modVar_ofModVar] at this
  apply le_antisymm
  · rw [h]; norm_num
  · by_contra hc
    have := (h 8).1 (by omega)
    norm_num at this

-- the hypothesis holds for a noise of ±100
example : (uniform Bool).E (fun x => ((if x then 100 else -100 : Int) : ℚ)) = 0 := by
  rw [E_uniform]; norm_num [Fintype.sum_bool]

/-! ### Most significant bits -/

theorem toInt_eq_mod (hw : 0 < w) (x : BitVec w) :
    x.toInt = ((x.toNat + 2 ^ (w - 1)) % 2 ^ w : Nat) - (2 ^ (w - 1) : Int) := by
  have h2 : 2 ^ w = 2 * 2 ^ (w - 1) := by rw [← pow_succ']; congr 1; omega
  have hx := x.isLt
  have h3 : (2 ^ (w - 1) : Int) = ((2 ^ (w - 1) : Nat) : Int) := by push_cast; rfl
  rw [BitVec.toInt_eq_toNat_cond, h3, h2]
  clear h3
  generalize 2 ^ (w - 1) = A at *
  split
  · rw [Nat.mod_eq_of_lt (by omega)]; push_cast; omega
  · rw [Nat.mod_eq_sub_mod (by omega), Nat.mod_eq_of_lt (by omega)]; push_cast; omega

theorem E_toInt_f (hw : 0 < w) (f : ℚ → ℚ) : (uniform (BitVec w)).E (fun x => f (x.toInt : ℚ)) =
    (∑ y ∈ Finset.range (2 ^ w), f ((y : ℚ) - 2 ^ (w - 1))) / 2 ^ w := by
  have he : ∀ x : BitVec w, f (x.toInt : ℚ) =
      (fun y : Nat => f ((y : ℚ) - 2 ^ (w - 1))) ((x.toNat + 2 ^ (w - 1)) % 2 ^ w) := by
    intro x
    rw [toInt_eq_mod hw]
    push_cast; rfl
  rw [E_congr _ he, E_words (fun i => (fun y : Nat => f ((y : ℚ) - 2 ^ (w - 1))) ((i + 2 ^ (w - 1)) % 2 ^ w))]
  have := sum_mod (2 ^ w) 1 (2 ^ (w - 1)) (fun y : Nat => f ((y : ℚ) - 2 ^ (w - 1)))
  rw [Nat.mul_one, Nat.cast_one, one_mul] at this
  rw [this]

theorem E_toInt (hw : 0 < w) : (uniform (BitVec w)).E (fun x => (x.toInt : ℚ)) = -1 / 2 := by
  rw [E_toInt_f hw (fun x => x), sum_range_lin]
  have h2 : (2 ^ w : ℚ) = 2 * 2 ^ (w - 1) := by
    rw [← pow_succ']; congr 1; omega
  have h3 : (2 ^ (w - 1) : ℚ) ≠ 0 := by positivity
  push_cast
  rw [h2]
  field_simp
  ring

theorem E_toInt_sq (hw : 0 < w) : (uniform (BitVec w)).E (fun x => (x.toInt : ℚ) ^ 2) =
    (2 ^ (2 * w) + 2) / 12 := by
  rw [E_toInt_f hw (fun x => x ^ 2), sum_range_sq]
  have h2 : (2 ^ w : ℚ) = 2 * 2 ^ (w - 1) := by
    rw [← pow_succ']; congr 1; omega
  have h3 : (2 ^ (w - 1) : ℚ) ≠ 0 := by positivity
  push_cast
  rw [show 2 * w = w * 2 by ring, pow_mul, h2]
  field_simp
  ring

/-- C102. Bits above the modulus: for uniform words `b`, `a_i` and a key with the mean and variance of the kind
of key `K`, the integer `b - Σ a_i s_i` computed without reduction from the signed values of the words, in
units of the modulus `2^w`, has the estimated variance (as a modular variance). -/
theorem C102_msb (hw : 0 < w) (K : KeyDispersion) (dk : Dist κ) (X : κ → Int)
    (hK : K.expCoef = dk.E fun x => (X x : ℚ)) (hKv : modVar (K.varCoef w) w = dk.Var fun x => (X x : ℚ)) :
    ((uniform (BitVec w)).prod (iid n ((uniform (BitVec w)).prod dk))).Var (fun ω =>
      ((ω.1.toInt : ℚ) - ∑ i, ((ω.2 i).1.toInt : ℚ) * (X (ω.2 i).2 : ℚ)) / 2 ^ w) =
    modVar (msbNoise K n w) w := by
  have hone : ((uniform (BitVec w)).prod dk).Var (fun x => -1 * ((x.1.toInt : ℚ) * (X x.2 : ℚ))) =
      (2 ^ (2 * w) + 2) / 12 * dk.E (fun x => (X x : ℚ) ^ 2) - (1 / 2 * dk.E (fun x => (X x : ℚ))) ^ 2 := by
    rw [Var_cmul, Var_eq, E_prod_mul (uniform (BitVec w)) dk (fun x => (x.toInt : ℚ)) (fun x => (X x : ℚ)),
      E_congr _ (Y := fun x : BitVec w × κ => (x.1.toInt : ℚ) ^ 2 * (X x.2 : ℚ) ^ 2) (fun x => by ring),
      E_prod_mul (uniform (BitVec w)) dk (fun x => (x.toInt : ℚ) ^ 2) (fun x => (X x : ℚ) ^ 2), E_toInt hw,
      E_toInt_sq hw]
    ring
  have hb : (uniform (BitVec w)).Var (fun x => (x.toInt : ℚ)) = (2 ^ (2 * w) - 1) / 12 := by
    rw [Var_eq, E_toInt hw, E_toInt_sq hw]; ring
  rw [Var_congr _ (Y := fun ω : BitVec w × (Fin n → BitVec w × κ) => (1 / 2 ^ w) *
      ((ω.1.toInt : ℚ) + ∑ i, -1 * (((ω.2 i).1.toInt : ℚ) * (X (ω.2 i).2 : ℚ)))) (fun ω => by
        rw [← Finset.mul_sum]; ring),
    Var_cmul, Var_prod_add (uniform (BitVec w)) _ (fun x => (x.toInt : ℚ))
      (fun z : Fin n → BitVec w × κ => ∑ i, -1 * (((z i).1.toInt : ℚ) * (X (z i).2 : ℚ))), hb, iid,
    Var_pi_sum (fun _ => (uniform (BitVec w)).prod dk) (fun _ x => -1 * ((x.1.toInt : ℚ) * (X x.2 : ℚ))),
    Finset.sum_const, Finset.card_univ, Fintype.card_fin, nsmul_eq_mul, hone, msbNoise]
  simp only [modVar_ofModVar]
  rw [hKv, hK, Var_eq dk, square]
  have h2 : (2 ^ (2 * w) : ℚ) = (2 ^ w) ^ 2 := by rw [← pow_mul]; congr 1; ring
  rw [h2]
  field_simp
  ring

-- the hypotheses hold for binary keys
example : binaryKey.expCoef = (uniform Bool).E (fun x => ((if x then 1 else 0 : Int) : ℚ)) ∧
    modVar (binaryKey.varCoef 64) 64 = (uniform Bool).Var (fun x => ((if x then 1 else 0 : Int) : ℚ)) := by
  have hX : (fun x : Bool => ((if x then 1 else 0 : Int) : ℚ)) = bitValue := by
    funext x; cases x <;> simp [bitValue]
  rw [hX]
  exact ⟨C96_binary.expCoef, C96_binary.varCoef 64⟩

/-! ### Relinearization and multiplication -/

/-- C102, relinearization: for a relinearization key without noise the estimate does not depend on the base of
the decomposition; its rounding term is the variance of the rounding error of a decomposition with base 2,
which is larger than the one of the decomposition with base `2^b`. -/
theorem C102_relinearization_violated (K : KeyDispersion) (N k b l : Nat) (hv : ValidParams w b l) (hb : 2 ≤ b) :
    modVar (relinNoise K N k 0 b l w) w =
      k * N / 2 * (uniform (BitVec w)).Var (fun x => (roundErr 1 l x : ℚ)) *
        ((k - 1) * (modVar (K.varTimes N w) w + K.sqExpTimes N) + modVar (K.varOdd N w) w +
          modVar (K.varEven N w) w + 2 * K.sqExpTimes N) +
      k * N / 8 * ((k - 1) * modVar (K.varTimes N w) w + modVar (K.varOdd N w) w + modVar (K.varEven N w) w) ∧
    (uniform (BitVec w)).Var (fun x => (roundErr b l x : ℚ)) <
      (uniform (BitVec w)).Var (fun x => (roundErr 1 l x : ℚ)) := by
  have hl := hv.level
  have hf := hv.fits
  have hle : 2 * l ≤ b * l := Nat.mul_le_mul_right l hb
  have hv1 : ValidParams w 1 l := ⟨by omega, hl, by omega⟩
  refine ⟨?_, ?_⟩
  · rw [Var_roundErr 1 hv1, relinNoise]
    simp only [modVar_ofModVar]
    rw [show modVar 0 w = 0 by simp [modVar]]
    have hq : (2 ^ (2 * w) : ℚ) = (2 ^ (w - 1 * l) : ℚ) ^ 2 * 2 ^ (2 * l) := by
      rw [← pow_mul, ← pow_add]; congr 1; omega
    have h2 : (2 ^ (2 * l) : ℚ) ≠ 0 := by positivity
    rw [hq]
    field_simp
    ring
  · rw [Var_roundErr b hv, Var_roundErr 1 hv1]
    have h1 : (2 ^ (w - b * l) : ℚ) < 2 ^ (w - 1 * l) := by
      have : 2 ^ (w - b * l) < 2 ^ (w - 1 * l) := Nat.pow_lt_pow_right (by omega) (by omega)
      exact_mod_cast this
    have h0 : (0 : ℚ) < 2 ^ (w - b * l) := by positivity
    nlinarith

-- the hypotheses hold for 64 bits and 3 levels of 7 bits
example : ValidParams 64 7 3 ∧ 2 ≤ 7 := ⟨⟨by decide, by decide, by decide⟩, by decide⟩

/-- C102. The estimate of a product is symmetric in its two arguments, and is the sum of the estimates of the
tensor product and of the relinearization. -/
theorem C102_multiplication (K : KeyDispersion) (N k : Nat) (var1 var2 delta1 delta2 max1 max2 varRlk : ℚ)
    (b l q : Nat) :
    multiplicationNoise K N k var1 var2 delta1 delta2 max1 max2 varRlk b l q =
      multiplicationNoise K N k var2 var1 delta2 delta1 max2 max1 varRlk b l q ∧
    multiplicationNoise K N k var1 var2 delta1 delta2 max1 max2 varRlk b l q =
      tensorNoise K N k var1 var2 delta1 delta2 max1 max2 q + relinNoise K N k varRlk b l q := by
  have hs : tensorNoise K N k var1 var2 delta1 delta2 max1 max2 q =
      tensorNoise K N k var2 var1 delta2 delta1 max2 max1 q := by
    simp only [tensorNoise, min_comm delta2 delta1]
    congr 1
    ring
  refine ⟨by rw [multiplicationNoise, multiplicationNoise, hs], ?_⟩
  rw [multiplicationNoise, ofModVar, modVar, modVar]
  have h2 : (2 ^ (2 * q) : ℚ) ≠ 0 := by positivity
  field_simp

end Verif.Npe
