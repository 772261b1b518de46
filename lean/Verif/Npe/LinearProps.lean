import Verif.Npe.KeyLemmas
import Verif.Util.BitVecRing
/-
C97: the estimators of the linear operations and of the programmes built from other estimators.
-/
namespace Verif.Npe
open Dist Verif.BV
open Verif.Poly (negaConv)

/-! ### Helper lemmas -/

theorem ofModVar_modVar (v : ℚ) (q : Nat) : ofModVar (modVar v q) q = v := by
  rw [modVar, ofModVar, mul_div_cancel_right₀]; positivity

theorem additionNoise_eq (v1 v2 : ℚ) (q : Nat) : additionNoise v1 v2 q = v1 + v2 := by
  have : modVar v1 q + modVar v2 q = modVar (v1 + v2) q := by simp only [modVar]; ring
  rw [additionNoise, this, ofModVar_modVar]

theorem severalAdditions_foldl (q : Nat) (vs : List ℚ) (acc : ℚ) :
    vs.foldl (fun acc v => acc + modVar v q) (modVar acc q) = modVar (acc + vs.sum) q := by
  induction vs generalizing acc with
  | nil => simp
  | cons v vs ih =>
    rw [List.foldl_cons, show modVar acc q + modVar v q = modVar (acc + v) q by
      simp only [modVar]; ring, ih, List.sum_cons, add_assoc]

theorem severalAdditionsNoise_eq (vs : List ℚ) (q : Nat) : severalAdditionsNoise vs q = vs.sum := by
  have := severalAdditions_foldl q vs 0
  rw [show modVar 0 q = 0 by simp [modVar], zero_add] at this
  rw [severalAdditionsNoise, this, ofModVar_modVar]

theorem integerMulNoise_eq {w : Nat} (release : Bool) (v : ℚ) (n : BitVec w) (hw : 0 < w)
    (h : n.toInt * n.toInt < 2 ^ (w - 1)) :
    integerMulNoise release v n = some (v * (n.toInt : ℚ) ^ 2) := by
  rw [integerMulNoise, if_neg (fun c => c.2 h)]
  have : (n * n).toInt = n.toInt * n.toInt := by
    have e : n * n = ((n.toInt * n.toInt : Int) : BitVec w) := by
      push_cast; rw [intCast_toInt]
    rw [e]
    exact toInt_cast_of_bounds _ (by
      have := mul_self_nonneg n.toInt
      have : (0 : Int) < 2 ^ (w - 1) := by positivity
      linarith) h hw
  rw [this]; push_cast; rw [sq]

theorem weightedSum_foldl {w : Nat} (release : Bool) (hw : 0 < w) (L : List (ℚ × BitVec w)) (acc : ℚ)
    (h : ∀ p ∈ L, p.2.toInt * p.2.toInt < 2 ^ (w - 1)) :
    L.foldl (weightedStep release) (some acc) = some (acc + (L.map fun p => p.1 * (p.2.toInt : ℚ) ^ 2).sum) := by
  induction L generalizing acc with
  | nil => simp
  | cons p L ih =>
    have hs : weightedStep release (some acc) p = some (acc + p.1 * (p.2.toInt : ℚ) ^ 2) := by
      simp only [weightedStep, integerMulNoise_eq release p.1 p.2 hw (h p (by simp))]
    rw [List.foldl_cons, hs, ih _ (fun x hx => h x (by simp [hx]))]
    simp [add_assoc]

theorem zip_ofFn {α β : Type} {n : Nat} (f : Fin n → α) (g : Fin n → β) :
    (List.ofFn f).zip (List.ofFn g) = List.ofFn fun i => (f i, g i) := by
  apply List.ext_getElem <;> simp

theorem weightedSumNoise_eq {w n : Nat} (release : Bool) (hw : 0 < w) (v : Fin n → ℚ)
    (c : Fin n → BitVec w) (h : ∀ i, (c i).toInt * (c i).toInt < 2 ^ (w - 1)) :
    weightedSumNoise release (List.ofFn v) (List.ofFn c) =
      some (∑ i, v i * ((c i).toInt : ℚ) ^ 2) := by
  rw [weightedSumNoise, zip_ofFn, weightedSum_foldl release hw]
  · rw [zero_add, List.map_ofFn, List.sum_ofFn]; rfl
  · intro p hp
    obtain ⟨i, rfl⟩ := (List.mem_ofFn' _ _).1 hp
    exact h i

theorem Var_scale {α : Type} [Fintype α] (d : Dist α) (c : ℚ) (X : α → ℚ) :
    d.Var (fun a => c * X a) = c ^ 2 * d.Var X := by
  rw [Var_eq, Var_eq, E_mul_left, E_congr d (Y := fun a => c ^ 2 * X a ^ 2) (fun a => by ring),
    E_mul_left]
  ring

/-! ### The property -/

/-- C97. The estimate for an addition is the variance of the sum of two independent noises. -/
theorem C97_addition {α β : Type} [Fintype α] [Fintype β] (d : Dist α) (e : Dist β) (X : α → ℚ)
    (Y : β → ℚ) (q : Nat) :
    additionNoise (d.Var X) (e.Var Y) q = (d.prod e).Var fun ω => X ω.1 + Y ω.2 := by
  rw [additionNoise_eq, Var_prod_add]

/-- C97. The estimate for several additions is the variance of the sum of independent noises. -/
theorem C97_several_additions {α : Type} [Fintype α] {n : Nat} (d : Fin n → Dist α)
    (X : Fin n → α → ℚ) (q : Nat) :
    severalAdditionsNoise (List.ofFn fun i => (d i).Var (X i)) q =
      (Dist.pi d).Var fun ω => ∑ i, X i (ω i) := by
  rw [severalAdditionsNoise_eq, List.sum_ofFn, Var_pi_sum]

/-- C97. The estimate for a product by an integer is the variance of the product, in every build, as long
as the square of the (signed) integer fits the signed type. -/
theorem C97_integer_multiplication {α : Type} [Fintype α] {w : Nat} (release : Bool) (d : Dist α)
    (X : α → ℚ) (hw : 0 < w) (n : BitVec w) (h : n.toInt * n.toInt < 2 ^ (w - 1)) :
    integerMulNoise release (d.Var X) n = some (d.Var fun a => (n.toInt : ℚ) * X a) := by
  rw [integerMulNoise_eq release _ n hw h, Var_scale, mul_comm]

/-- C97. The estimate for a weighted sum is the variance of the weighted sum of independent noises. -/
theorem C97_weighted_sum {α : Type} [Fintype α] {w n : Nat} (release : Bool) (d : Fin n → Dist α)
    (X : Fin n → α → ℚ) (hw : 0 < w) (c : Fin n → BitVec w)
    (h : ∀ i, (c i).toInt * (c i).toInt < 2 ^ (w - 1)) :
    weightedSumNoise release (List.ofFn fun i => (d i).Var (X i)) (List.ofFn c) =
      some ((Dist.pi d).Var fun ω => ∑ i, ((c i).toInt : ℚ) * X i (ω i)) := by
  rw [weightedSumNoise_eq release hw _ c h,
    Var_pi_sum d (fun i a => ((c i).toInt : ℚ) * X i a)]
  exact congrArg some (Finset.sum_congr rfl fun i _ => by rw [Var_scale, mul_comm])

/-- C97. The estimate for a product by a plaintext polynomial is the variance of every coefficient of the
product, modulo `X^N + 1`, of the polynomial and a polynomial of independent noises. -/
theorem C97_polynomial_multiplication {α : Type} [Fintype α] {w N : Nat} (release : Bool) (d : Dist α)
    (X : α → ℚ) (hw : 0 < w) (p : Fin N → BitVec w)
    (h : ∀ i, (p i).toInt * (p i).toInt < 2 ^ (w - 1)) (n : Nat) (hn : n < N) :
    polynomialMulNoise release (d.Var X) (List.ofFn p) =
      some ((iid N d).Var fun ω =>
        negaConv N (List.ofFn fun i => ((p i).toInt : ℚ)) (List.ofFn fun i => X (ω i)) n) := by
  have e : (List.replicate (List.ofFn p).length (d.Var X)) = List.ofFn fun _ : Fin N => d.Var X := by
    rw [List.length_ofFn, List.ofFn_const]
  rw [polynomialMulNoise, e, weightedSumNoise_eq release hw _ p h]
  congr 1
  let σ : Equiv.Perm (Fin N) := ⟨partner n, partner n, partner_partner n hn, partner_partner n hn⟩
  have hσ : ∀ j, σ j = partner n j := fun _ => rfl
  have hs : ∀ ω : Fin N → α, negaConv N (List.ofFn fun i => ((p i).toInt : ℚ))
      (List.ofFn fun i => X (ω i)) n =
      ∑ j : Fin N, (eps n (partner n j) * ((p (partner n j)).toInt : ℚ)) * X (ω j) := by
    intro ω
    rw [negaConv_eq n hn, ← Equiv.sum_comp σ]
    exact Finset.sum_congr rfl fun j _ => by
      rw [hσ, partner_partner n hn]; ring
  rw [Var_congr _ hs, iid,
    Var_pi_sum (fun _ => d) (fun j a => (eps n (partner n j) * ((p (partner n j)).toInt : ℚ)) * X a),
    ← Equiv.sum_comp σ]
  refine Finset.sum_congr rfl fun j _ => ?_
  rw [hσ, Var_scale, mul_pow, sq (eps n _), eps_sq]; ring

/-- C97, negative. A 64-bit weight of `2^32` overflows: the estimate is 0 in a build without overflow
checks and there is none otherwise, although the variance is multiplied by `2^64`. -/
theorem C97_weight_overflow_violated {α : Type} [Fintype α] (d : Dist α) (X : α → ℚ) :
    integerMulNoise true (d.Var X) (BitVec.ofNat 64 (2 ^ 32)) = some 0 ∧
      integerMulNoise false (d.Var X) (BitVec.ofNat 64 (2 ^ 32)) = none ∧
      d.Var (fun a => ((BitVec.ofNat 64 (2 ^ 32)).toInt : ℚ) * X a) = 2 ^ 64 * d.Var X := by
  have h1 : (BitVec.ofNat 64 (2 ^ 32)).toInt = 2 ^ 32 := by decide
  have h2 : (BitVec.ofNat 64 (2 ^ 32) * BitVec.ofNat 64 (2 ^ 32)).toInt = 0 := by decide
  refine ⟨?_, ?_, ?_⟩
  · rw [integerMulNoise, if_neg (fun c => by simp at c), h2]; simp
  · rw [integerMulNoise, if_pos ⟨rfl, by rw [h1]; norm_num⟩]
  · rw [h1, Var_scale]; norm_num

/-- C97. The estimate for a bootstrap is the estimate of `n` external products without input noise. -/
theorem C97_pbs (K : KeyDispersion) (n N k baseLog level : Nat) (varBsk : ℚ) (q : Nat) :
    pbsNoise K n N k baseLog level varBsk q =
      n * externalProductNoise K N k 0 varBsk baseLog level q := by
  simp only [pbsNoise, externalProductNoise, ofModVar]
  simp only [show modVar 0 q = 0 by simp [modVar]]
  ring

/-- C97. The estimate for a CMux adds the first input to the external product of the difference. -/
theorem C97_cmux (K : KeyDispersion) (k N baseLog level : Nat) (var0 var1 varGgsw : ℚ) (q : Nat) :
    cmuxNoise K k N baseLog level var0 var1 varGgsw q =
      externalProductNoise K N k 0 varGgsw baseLog level q + (var0 + var1) / 2 + var0 := by
  simp only [cmuxNoise, additionNoise_eq, externalProductNoise, ofModVar]
  have hq : (2 ^ (2 * q) : ℚ) ≠ 0 := by positivity
  have e : modVar (var0 + var1) q / 2 = (var0 + var1) / 2 * 2 ^ (2 * q) := by rw [modVar]; ring
  rw [e, show modVar 0 q = 0 by simp [modVar]]
  field_simp
  ring

theorem bitExtractionLoop_eq (ks : ℚ → ℚ) (pbs v0 : ℚ) (nb prec q : Nat) :
    ∀ (fuel bit : Nat) (cur : ℚ) (out : List ℚ), bit + fuel = nb → (0 < fuel → cur = v0 + bit * pbs) →
      bitExtractionLoop ks pbs nb prec q fuel bit cur out =
        out ++ (List.range fuel).map fun i =>
          ks ((v0 + ((bit + i : Nat) : ℚ) * pbs) * (4 : ℚ) ^ ((prec : Int) - (bit + i : Nat) - 1)) := by
  intro fuel
  induction fuel with
  | zero => intro bit cur out _ _; simp [bitExtractionLoop]
  | succ fuel ih =>
    intro bit cur out hb hc
    have hc' := hc (Nat.succ_pos _)
    rw [bitExtractionLoop, ih (bit + 1) _ _ (by omega) (by
      intro hf
      rw [if_pos (by omega), additionNoise_eq, hc']; push_cast; ring)]
    rw [List.range_succ_eq_map, List.map_cons, List.map_map, List.append_assoc]
    congr 1
    rw [List.singleton_append]
    congr 1
    · rw [hc']
      have : modVar (v0 + (bit : ℚ) * pbs) q * (4 : ℚ) ^ ((prec : Int) - bit - 1) =
          modVar ((v0 + (bit : ℚ) * pbs) * (4 : ℚ) ^ ((prec : Int) - bit - 1)) q := by
        simp only [modVar]; ring
      rw [this, ofModVar_modVar]; simp
    · apply List.map_congr_left
      intro i _
      simp only [Function.comp]
      rw [show bit + 1 + i = bit + (i + 1) by omega]

/-- C97. The estimates for the extraction of bits, the most significant bit first: bit `i` was scaled by
`2^(prec - i - 1)` and went through `i` bootstraps before its keyswitch. There is none (a panic) for no
bit. -/
theorem C97_bit_extraction (K1 K2 : KeyDispersion) (nb prec nIn nKs k N : Nat)
    (varLwe varKsk varBsk : ℚ) (blKsk lvKsk blBsk lvBsk q : Nat) :
    (nb = 0 → bitExtractionNoise K1 K2 nb prec nIn nKs k N varLwe varKsk varBsk blKsk lvKsk blBsk lvBsk q =
      none) ∧
    (0 < nb → ∃ L : List ℚ,
      bitExtractionNoise K1 K2 nb prec nIn nKs k N varLwe varKsk varBsk blKsk lvKsk blBsk lvBsk q = some L ∧
      L.length = nb ∧ ∀ i, i < nb → L[nb - 1 - i]? = some (keyswitchNoise K1 nIn
        ((varLwe + i * pbsNoise K2 nKs N k blBsk lvBsk varBsk q) * (4 : ℚ) ^ ((prec : Int) - i - 1))
        varKsk blKsk lvKsk q)) := by
  refine ⟨fun h => by rw [bitExtractionNoise, if_pos h], fun h => ?_⟩
  refine ⟨_, by rw [bitExtractionNoise, if_neg (by omega)], ?_, ?_⟩
  · rw [ofModVar_modVar, bitExtractionLoop_eq _ _ varLwe nb prec q nb 0 _ _ (by omega) (by simp)]
    simp
  · intro i hi
    rw [ofModVar_modVar, bitExtractionLoop_eq _ _ varLwe nb prec q nb 0 _ _ (by omega) (by simp),
      List.nil_append, List.getElem?_reverse (by simp; omega), List.length_map, List.length_range,
      show nb - 1 - (nb - 1 - i) = i by omega, List.getElem?_map, List.getElem?_range hi]
    simp

/-- C97. The estimate for the bootstrap without padding composes the three programmes: the vertical
packing of `nbBits` external products with GGSW ciphertexts whose noise is that of a private keyswitch of
a bootstrapped ciphertext. -/
theorem C97_wop_pbs (K1 K2 : KeyDispersion) (nbBits n N k baseLog level : Nat) (varBsk varKsk : ℚ)
    (q : Nat) :
    wopPbsNoise K1 K2 nbBits n N k baseLog level varBsk varKsk q =
      nbBits * externalProductNoise binaryKey N k 0
        (privateKeyswitchNoise K2 (k * N) (n * externalProductNoise K1 N k 0 varBsk baseLog level q)
          varKsk baseLog level 1 q) baseLog level q := by
  rw [wopPbsNoise, verticalPackingNoise, circuitBootstrapNoise, C97_pbs, C97_pbs]

-- concrete weights
example : weightedSumNoise false [2, 5] [1#64, 3#64] = some 47 := by
  have := weightedSumNoise_eq (w := 64) (n := 2) false (by omega) ![2, 5] ![1#64, 3#64]
    (by intro i; fin_cases i <;> decide)
  simp only [Fin.sum_univ_two, List.ofFn_succ, List.ofFn_zero] at this
  have h1 : (1#64).toInt = 1 := by decide
  have h3 : (3#64).toInt = 3 := by decide
  simp [h1, h3] at this
  rw [this]; norm_num

end Verif.Npe
