import Verif.Npe.PackLemmas
/-
C100: the noise of the packing keyswitch and of the private functional keyswitch of the model, for one
ciphertext, against the estimates for the constant and for the other coefficients.
-/
namespace Verif.Npe
open Verif.Poly Verif.Decomp Verif.BV Verif.Glwe Verif.Lwe Verif.Pks Dist

variable {w n N k l : Nat} {α κ ε : Type} [Fintype α] [Fintype κ] [Fintype ε]

/-- The noise of the packing keyswitch. -/
def packNoise (b : Nat) (X : κ → Int) (e₀ : α → Int) (e : ε → Int) (ω : KsSample w n l α κ (Fin N → ε))
    (c : Fin N) : Int :=
  (if (c : Nat) = 0 then e₀ ω.1 else 0) + ∑ i, elemNoise b 1 X e (ω.2 i) c

omit [Fintype α] [Fintype κ] [Fintype ε] in
theorem pack_phase (hN : 0 < N) (b : Nat) (hv : ValidParams w b l) (X : κ → Int) (e₀ : α → Int) (e : ε → Int)
    (m : BitVec w) (key after ksk : List (BitVec w)) (ha : CtFits N k after)
    (ω : KsSample w n l α κ (Fin N → ε)) (hk : IsPacking k b X e key ksk ω) :
    ∃ r, packingKeyswitchOne b l N k ksk after (inputOf X e₀ m ω) = some r ∧ CtFits N k r ∧
      glwePhase N k key r = const N m + polyOf w (packNoise b X e₀ e ω) := by
  have hinit := phase_init hN key after ha
    ((∑ i, (ω.2 i).1 * ((X (ω.2 i).2.1 : Int) : BitVec w)) + m + ((e₀ ω.1 : Int) : BitVec w))
  have hb := blocks_explicit hN b hv key ksk _ _ hk (List.ofFn fun i => (ω.2 i).1) (by simp) _ hinit.1
  refine ⟨_, ?_, hb.1, ?_⟩
  · simp only [packingKeyswitchOne, inputOf, List.getLast?_append, List.getLast?_singleton, Option.some_or,
      List.dropLast_concat, if_neg hN.ne']
  · rw [hb.2, hinit.2, Finset.sum_range]
    have hterm : ∀ i : Fin n,
        const N (closestRepresentable b l ((List.ofFn fun i => (ω.2 i).1).getD i 0)) *
            const N ((keyOf X ω).getD i 0) +
          ∑ j ∈ Finset.range l, ((ksDigit b l ((List.ofFn fun i => (ω.2 i).1).getD i 0) (l - 1 - j)).toInt :
            Rq (BitVec w) N) * packErr e ω i j =
        const N ((ω.2 i).1 * ((X (ω.2 i).2.1 : Int) : BitVec w)) -
          polyOf w (elemNoise b 1 X e (ω.2 i)) := by
      intro i
      have h1 : (List.ofFn fun i => (ω.2 i).1).getD (i : Nat) 0 = (ω.2 i).1 := by
        simp [List.getD_eq_getElem?_getD]
      have h2 : (keyOf X ω).getD (i : Nat) 0 = ((X (ω.2 i).2.1 : Int) : BitVec w) := by
        simp [keyOf, List.getD_eq_getElem?_getD]
      have h3 := elem_poly hN b 1 X e (ω.2 i)
      rw [Int.cast_one, one_mul] at h3
      rw [h1, h2, ← h3, Finset.sum_range]
      congr 1
      refine Finset.sum_congr rfl fun j _ => ?_
      rw [packErr, dif_pos ⟨i.2, j.2⟩]
    rw [Finset.sum_congr rfl fun i _ => hterm i, Finset.sum_sub_distrib, ← const_sum]
    have hp : polyOf w (packNoise b X e₀ e ω) = const N ((e₀ ω.1 : Int) : BitVec w) +
        ∑ i, polyOf w (elemNoise b 1 X e (ω.2 i)) := by
      rw [← polyOf_const hN, ← polyOf_sum, ← polyOf_add]
      rfl
    rw [hp, const_add, const_add]
    ring

/-- The noise of the private functional keyswitch. -/
def pfksNoise (b : Nat) (R : Int) (X : κ → Int) (e₀ : α → Int) (e : ε → Int) (ω : PfksSample w n N l α κ ε)
    (c : Fin N) : Int :=
  ((if (c : Nat) = 0 then R * e₀ ω.1.1 else 0) + ∑ i, elemNoise b R X e (ω.1.2 i) c) +
    elemNoise b R (fun _ => -1) e ω.2 c

omit [Fintype α] [Fintype κ] [Fintype ε] in
theorem pfks_phase (hN : 0 < N) (b : Nat) (hv : ValidParams w b l) (R : Int) (X : κ → Int) (e₀ : α → Int)
    (e : ε → Int) (key after ksk : List (BitVec w)) (ha : CtFits N k after)
    (ω : PfksSample w n N l α κ ε) (hk : IsPfks k b R X e key ksk ω) :
    ∃ r, privateKeyswitchOne b l N k ksk after ω.input = some r ∧ CtFits N k r ∧
      glwePhase N k key r =
        const N ((R : BitVec w) * (phase (keyOf X ω.1) ω.input - ((e₀ ω.1.1 : Int) : BitVec w))) +
          polyOf w (pfksNoise b R X e₀ e ω) := by
  have hi0 : CtFits N k (after.map fun _ => 0#w) := by simpa [CtFits] using ha
  have hb := blocks_explicit hN b hv key ksk _ _ hk ω.input (by simp [PfksSample.input]) _ hi0
  refine ⟨_, rfl, hb.1, ?_⟩
  rw [hb.2, List.map_const', phase_zero, zero_sub, Finset.sum_range, Fin.sum_univ_castSucc]
  simp only [Fin.val_castSucc, Fin.val_last]
  have hin : ∀ i : Fin n, ω.input.getD (i : Nat) 0 = (ω.1.2 i).1 := by
    intro i; simp [PfksSample.input, List.getD_eq_getElem?_getD, List.getElem?_append_left]
  have hinl : ω.input.getD n 0 = ω.2.1 := by
    simp [PfksSample.input, List.getD_eq_getElem?_getD]
  have hkey : ∀ i : Fin n, (keyOf X ω.1).getD (i : Nat) 0 = ((X (ω.1.2 i).2.1 : Int) : BitVec w) := by
    intro i; simp [keyOf, List.getD_eq_getElem?_getD]
  have hkey' : ∀ i : Fin n, (keyOf X ω.1 ++ [-1]).getD (i : Nat) 0 =
      ((X (ω.1.2 i).2.1 : Int) : BitVec w) := by
    intro i; simp [keyOf, List.getD_eq_getElem?_getD, List.getElem?_append_left]
  have hkeyl : (keyOf X ω.1 ++ [-1]).getD n 0 = (((-1 : Int)) : BitVec w) := by
    simp [keyOf, List.getD_eq_getElem?_getD]
  have hterm : ∀ i : Fin n,
      const N (closestRepresentable b l (ω.input.getD i 0)) *
          const N ((R : BitVec w) * (keyOf X ω.1 ++ [-1]).getD i 0) +
        ∑ j ∈ Finset.range l, ((ksDigit b l (ω.input.getD i 0) (l - 1 - j)).toInt :
          Rq (BitVec w) N) * pfksErr e ω i j =
      const N ((ω.1.2 i).1 * ((R : BitVec w) * ((X (ω.1.2 i).2.1 : Int) : BitVec w))) -
        polyOf w (elemNoise b R X e (ω.1.2 i)) := by
    intro i
    rw [hin, hkey', ← elem_poly hN b R X e (ω.1.2 i), Finset.sum_range]
    congr 1
    refine Finset.sum_congr rfl fun j _ => ?_
    rw [pfksErr, if_pos i.2, packErr, dif_pos ⟨i.2, j.2⟩]
  have hlast : const N (closestRepresentable b l (ω.input.getD n 0)) *
          const N ((R : BitVec w) * (keyOf X ω.1 ++ [-1]).getD n 0) +
        ∑ j ∈ Finset.range l, ((ksDigit b l (ω.input.getD n 0) (l - 1 - j)).toInt :
          Rq (BitVec w) N) * pfksErr e ω n j =
      const N (ω.2.1 * ((R : BitVec w) * ((-1 : Int) : BitVec w))) -
        polyOf w (elemNoise b R (fun _ => -1) e ω.2) := by
    rw [hinl, hkeyl, ← elem_poly hN b R (fun _ => -1) e ω.2, Finset.sum_range]
    congr 1
    refine Finset.sum_congr rfl fun j _ => ?_
    rw [pfksErr, if_neg (by omega), dif_pos j.2]
  rw [Finset.sum_congr rfl fun i _ => hterm i, hlast, Finset.sum_sub_distrib, ← const_sum]
  have hp : polyOf w (pfksNoise b R X e₀ e ω) = const N ((R * e₀ ω.1.1 : Int) : BitVec w) +
      ∑ i, polyOf w (elemNoise b R X e (ω.1.2 i)) + polyOf w (elemNoise b R (fun _ => -1) e ω.2) := by
    rw [← polyOf_const hN, ← polyOf_sum, ← polyOf_add, ← polyOf_add]
    rfl
  have hph : phase (keyOf X ω.1) ω.input =
      ω.2.1 - ∑ i, (ω.1.2 i).1 * ((X (ω.1.2 i).2.1 : Int) : BitVec w) := by
    have hl : (keyOf X ω.1).length = n := by simp [keyOf]
    rw [phase, hl, hinl, Finset.sum_range, Finset.sum_congr rfl fun i _ => by rw [hin, hkey]]
  rw [hp, hph]
  have hs : ∑ i, (ω.1.2 i).1 * ((R : BitVec w) * ((X (ω.1.2 i).2.1 : Int) : BitVec w)) =
      (R : BitVec w) * ∑ i, (ω.1.2 i).1 * ((X (ω.1.2 i).2.1 : Int) : BitVec w) := by
    rw [Finset.mul_sum]; exact Finset.sum_congr rfl fun i _ => by ring
  rw [hs]
  push_cast
  generalize ∑ i, (ω.1.2 i).1 * ((X (ω.1.2 i).2.1 : Int) : BitVec w) = S
  rw [show (R : BitVec w) * (ω.2.1 - S - ((e₀ ω.1.1 : Int) : BitVec w)) = -(R * S) -
    ω.2.1 * (R * -1) - R * ((e₀ ω.1.1 : Int) : BitVec w) by ring, const_sub, const_sub,
    show const N (-((R : BitVec w) * S)) = -const N ((R : BitVec w) * S) by simp [const]]
  ring

/-! ### Variances -/

theorem Var_point (d : Dist α) (e₀ : α → Int) (R : Int) (p : Prop) [Decidable p] :
    d.Var (fun x => ((if p then R * e₀ x else 0 : Int) : ℚ)) =
      if p then (R : ℚ) ^ 2 * d.Var (fun x => (e₀ x : ℚ)) else 0 := by
  split
  · push_cast; rw [Var_cmul]
  · simp [Var, E_const]

theorem pack_Var (b : Nat) (hv : ValidParams w b l) (d : Dist α) (dk : Dist κ) (de : Dist ε) (R : Int)
    (X : κ → Int) (e₀ : α → Int) (e : ε → Int) (he : de.E (fun x => (e x : ℚ)) = 0) (c : Fin N) :
    (ksDist w n l d dk (iid N de)).Var (fun ω => (((if (c : Nat) = 0 then R * e₀ ω.1 else 0) +
        ∑ i, elemNoise b R X e (ω.2 i) c : Int) : ℚ)) =
      (if (c : Nat) = 0 then (R : ℚ) ^ 2 * d.Var (fun x => (e₀ x : ℚ)) else 0) +
      n * ((if (c : Nat) = 0 then (R : ℚ) ^ 2 *
        (((2 ^ (w - b * l) : ℚ) ^ 2 + 2) / 12 * dk.E (fun x => (X x : ℚ) ^ 2)
        - (1 / 2 * dk.E (fun x => (X x : ℚ))) ^ 2) else 0) +
        de.Var (fun x => (e x : ℚ)) * (l * (((2 ^ b : ℚ) ^ 2 + 2) / 12) - digitGap (2 ^ b) l)) := by
  rw [Var_congr _ (Y := fun ω : KsSample w n l α κ (Fin N → ε) =>
      ((if (c : Nat) = 0 then R * e₀ ω.1 else 0 : Int) : ℚ) + ∑ i, (elemNoise b R X e (ω.2 i) c : ℚ))
      (fun ω => by push_cast; rfl), ksDist,
    Var_prod_add d _ (fun x => ((if (c : Nat) = 0 then R * e₀ x else 0 : Int) : ℚ))
      (fun z : Fin n → BitVec w × κ × (Fin l → Fin N → ε) => ∑ i, (elemNoise b R X e (z i) c : ℚ)),
    Var_point, iid, Var_pi_sum (fun _ => (uniform (BitVec w)).prod (dk.prod (iid l (iid N de))))
      (fun _ x => (elemNoise b R X e x c : ℚ)), Finset.sum_const, Finset.card_univ, Fintype.card_fin,
    nsmul_eq_mul, elemNoise_Var b hv dk de R X e he c]

theorem q_split (b : Nat) (hv : ValidParams w b l) :
    (2 ^ (2 * w) : ℚ) = (2 ^ (w - b * l) : ℚ) ^ 2 * 2 ^ (b * 2 * l) := by
  rw [← pow_mul, ← pow_add]; congr 1
  have := hv.fits
  rw [show b * 2 * l = b * l * 2 by ring]; omega

omit [Fintype α] [Fintype κ] in
/-- What follows from an exact variance `est - m σ² digitGap`. -/
theorem gap_bound (b : Nat) (hv : ValidParams w b l) (de : Dist ε) (e : ε → Int) (V est : ℚ) (m : Nat)
    (h : V = est - m * (de.Var fun x => (e x : ℚ)) * digitGap (2 ^ b) l) :
    V ≤ est ∧ (l = 1 → V = est) := by
  have hVar : 0 ≤ de.Var fun x => (e x : ℚ) :=
    Finset.sum_nonneg fun x _ => mul_nonneg (de.nonneg x) (sq_nonneg _)
  refine ⟨?_, ?_⟩
  · have := mul_nonneg (mul_nonneg (Nat.cast_nonneg (α := ℚ) m) hVar)
      (digitGap_nonneg _ (base_ge b hv.base) l)
    linarith
  · rintro rfl
    rw [h]
    simp [digitGap]

/-- C100, packing keyswitch of one ciphertext: with a uniform mask, an input key whose coefficients have the
mean and variance of the kind of key `K` and centred noises, bounded so that nothing wraps, the result
encrypts the constant `m` with a noise polynomial `ν`. The variance of its constant coefficient is the
estimate "with constant terms", that of every other coefficient the estimate "with non constant terms",
both minus `n σ² digitGap`. -/
theorem C100_packing (hN : 0 < N) (b : Nat) (hv : ValidParams w b l) (K : KeyDispersion) (d : Dist α)
    (dk : Dist κ) (de : Dist ε) (e₀ : α → Int) (X : κ → Int) (e : ε → Int)
    (hK : K.expCoef = dk.E fun x => (X x : ℚ)) (hKv : modVar (K.varCoef w) w = dk.Var fun x => (X x : ℚ))
    (he : de.E (fun x => (e x : ℚ)) = 0)
    (A₀ A₁ A₂ : Nat) (h₀ : ∀ x, |e₀ x| ≤ A₀) (h₁ : ∀ x, |X x| ≤ A₁) (h₂ : ∀ x, |e x| ≤ A₂)
    (hsmall : A₀ + n * (A₁ * 2 ^ (w - b * l - 1) + l * (2 ^ (b - 1) * A₂)) < 2 ^ (w - 1))
    (m : BitVec w) (key after : List (BitVec w)) (ha : CtFits N k after)
    (ksk : KsSample w n l α κ (Fin N → ε) → List (BitVec w)) (hk : ∀ ω, IsPacking k b X e key (ksk ω) ω) :
    ∃ (out : KsSample w n l α κ (Fin N → ε) → List (BitVec w))
      (ν : KsSample w n l α κ (Fin N → ε) → Fin N → Int),
      (∀ ω, packingKeyswitchOne b l N k (ksk ω) after (inputOf X e₀ m ω) = some (out ω)) ∧
      (∀ ω, glwePhase N k key (out ω) = const N m + polyOf w (ν ω)) ∧
      (∀ ω c, |ν ω c| < 2 ^ (w - 1)) ∧
      ∀ c : Fin N, ∃ V, V = (ksDist w n l d dk (iid N de)).Var (fun ω => (ν ω c : ℚ)) ∧
      ∃ est, est = modVar (if (c : Nat) = 0 then
            keyswitchNoise K n (ofModVar (d.Var fun x => (e₀ x : ℚ)) w)
              (ofModVar (de.Var fun x => (e x : ℚ)) w) b l w
          else keyswitchNoiseNonConstant n (ofModVar (de.Var fun x => (e x : ℚ)) w) b l w) w ∧
      V = est - n * (de.Var fun x => (e x : ℚ)) * digitGap (2 ^ b) l ∧ V ≤ est ∧ (l = 1 → V = est) := by
  choose out ho hf hp using fun ω => pack_phase hN b hv X e₀ e m key after (ksk ω) ha ω (hk ω)
  have hsm : ((A₀ + n * (A₁ * 2 ^ (w - b * l - 1) + l * (2 ^ (b - 1) * A₂)) : Nat) : Int) <
      ((2 ^ (w - 1) : Nat) : Int) := by exact_mod_cast hsmall
  push_cast at hsm
  refine ⟨out, fun ω => packNoise b X e₀ e ω, ho, hp, fun ω c => lt_of_le_of_lt ?_ hsm, fun c => ?_⟩
  · change |packNoise b X e₀ e ω c| ≤ _
    rw [packNoise]
    refine (abs_add_le _ _).trans (add_le_add ?_ ((Finset.abs_sum_le_sum_abs _ _).trans ?_))
    · split
      · exact h₀ _
      · simp
    · refine (Finset.sum_le_card_nsmul _ _ _ (fun i _ => elemNoise_bound b hv 1 X e A₁ A₂
        (by simpa using h₁) h₂ (ω.2 i) c)).trans (by simp)
  · have key : (ksDist w n l d dk (iid N de)).Var (fun ω => (packNoise b X e₀ e ω c : ℚ)) =
        modVar (if (c : Nat) = 0 then
            keyswitchNoise K n (ofModVar (d.Var fun x => (e₀ x : ℚ)) w)
              (ofModVar (de.Var fun x => (e x : ℚ)) w) b l w
          else keyswitchNoiseNonConstant n (ofModVar (de.Var fun x => (e x : ℚ)) w) b l w) w -
        n * (de.Var fun x => (e x : ℚ)) * digitGap (2 ^ b) l := by
      have h := pack_Var (w := w) (n := n) b hv d dk de 1 X e₀ e he c
      simp only [one_mul, Int.cast_one, one_pow] at h
      simp only [packNoise]
      rw [h]
      split
      · rw [keyswitchNoise]
        simp only [modVar_ofModVar]
        rw [hKv, hK, Var_eq dk]
        have h2 : (2 ^ (b * 2 * l) : ℚ) ≠ 0 := by positivity
        rw [q_split b hv, square, square]
        field_simp
        ring
      · rw [keyswitchNoiseNonConstant]
        simp only [modVar_ofModVar]
        rw [show 2 * b = b * 2 by ring, pow_mul]
        ring
    exact ⟨_, rfl, _, rfl, key, gap_bound b hv de e _ _ n key⟩

/-- C100, private functional keyswitch of one ciphertext of uniform words, for the function `x ↦ R x`: the
result encrypts the constant `R` times the message (the phase without the noise of the input) with a noise
polynomial `ν`. The variance of its constant coefficient is the estimate with Lipschitz constant `R` minus
`(n + 1) σ² digitGap`; that of every other coefficient is the estimate "with non constant terms" for `n + 1`
elements minus the same. -/
theorem C100_private (hN : 0 < N) (b : Nat) (hv : ValidParams w b l) (K : KeyDispersion) (d : Dist α)
    (dk : Dist κ) (de : Dist ε) (R : Int) (e₀ : α → Int) (X : κ → Int) (e : ε → Int)
    (hK : K.expCoef = dk.E fun x => (X x : ℚ)) (hKv : modVar (K.varCoef w) w = dk.Var fun x => (X x : ℚ))
    (he : de.E (fun x => (e x : ℚ)) = 0)
    (A₀ A₁ A₂ : Nat) (h₀ : ∀ x, |R * e₀ x| ≤ A₀) (h₁ : ∀ x, |R * X x| ≤ A₁) (hR : |R| ≤ A₁)
    (h₂ : ∀ x, |e x| ≤ A₂)
    (hsmall : A₀ + (n + 1) * (A₁ * 2 ^ (w - b * l - 1) + l * (2 ^ (b - 1) * A₂)) < 2 ^ (w - 1))
    (key after : List (BitVec w)) (ha : CtFits N k after)
    (ksk : PfksSample w n N l α κ ε → List (BitVec w)) (hk : ∀ ω, IsPfks k b R X e key (ksk ω) ω) :
    ∃ (out : PfksSample w n N l α κ ε → List (BitVec w)) (ν : PfksSample w n N l α κ ε → Fin N → Int),
      (∀ ω, privateKeyswitchOne b l N k (ksk ω) after ω.input = some (out ω)) ∧
      (∀ ω, glwePhase N k key (out ω) =
        const N ((R : BitVec w) * (phase (keyOf X ω.1) ω.input - ((e₀ ω.1.1 : Int) : BitVec w))) +
          polyOf w (ν ω)) ∧
      (∀ ω c, |ν ω c| < 2 ^ (w - 1)) ∧
      ∀ c : Fin N, ∃ V, V = (pfksDist w n N l d dk de).Var (fun ω => (ν ω c : ℚ)) ∧
      ∃ est, est = modVar (if (c : Nat) = 0 then
            privateKeyswitchNoise K n (ofModVar (d.Var fun x => (e₀ x : ℚ)) w)
              (ofModVar (de.Var fun x => (e x : ℚ)) w) b l R w
          else keyswitchNoiseNonConstant (n + 1) (ofModVar (de.Var fun x => (e x : ℚ)) w) b l w) w ∧
      V = est - ((n + 1 : Nat) : ℚ) * (de.Var fun x => (e x : ℚ)) * digitGap (2 ^ b) l ∧
      V ≤ est ∧ (l = 1 → V = est) := by
  choose out ho hf hp using fun ω => pfks_phase hN b hv R X e₀ e key after (ksk ω) ha ω (hk ω)
  have hsm : ((A₀ + (n + 1) * (A₁ * 2 ^ (w - b * l - 1) + l * (2 ^ (b - 1) * A₂)) : Nat) : Int) <
      ((2 ^ (w - 1) : Nat) : Int) := by exact_mod_cast hsmall
  push_cast at hsm
  refine ⟨out, fun ω => pfksNoise b R X e₀ e ω, ho, hp, fun ω c => lt_of_le_of_lt ?_ hsm, fun c => ?_⟩
  · change |pfksNoise b R X e₀ e ω c| ≤ _
    rw [pfksNoise, add_mul, one_mul, ← add_assoc]
    refine (abs_add_le _ _).trans (add_le_add ((abs_add_le _ _).trans (add_le_add ?_
      ((Finset.abs_sum_le_sum_abs _ _).trans ?_))) ?_)
    · split
      · exact h₀ _
      · simp
    · refine (Finset.sum_le_card_nsmul _ _ _ (fun i _ => elemNoise_bound b hv R X e A₁ A₂
        h₁ h₂ (ω.1.2 i) c)).trans (by simp)
    · exact elemNoise_bound b hv R (fun _ => -1) e A₁ A₂ (by simpa using hR) h₂ ω.2 c
  · have key : (pfksDist w n N l d dk de).Var (fun ω => (pfksNoise b R X e₀ e ω c : ℚ)) =
        modVar (if (c : Nat) = 0 then
            privateKeyswitchNoise K n (ofModVar (d.Var fun x => (e₀ x : ℚ)) w)
              (ofModVar (de.Var fun x => (e x : ℚ)) w) b l R w
          else keyswitchNoiseNonConstant (n + 1) (ofModVar (de.Var fun x => (e x : ℚ)) w) b l w) w -
        ((n + 1 : Nat) : ℚ) * (de.Var fun x => (e x : ℚ)) * digitGap (2 ^ b) l := by
      have h := pack_Var (w := w) (n := n) b hv d dk de R X e₀ e he c
      have h' := elemNoise_Var (w := w) b hv (uniform Unit) de R (fun _ => -1) e he c
      rw [Var_congr _ (Y := fun ω : PfksSample w n N l α κ ε =>
          (((if (c : Nat) = 0 then R * e₀ ω.1.1 else 0) + ∑ i, elemNoise b R X e (ω.1.2 i) c : Int) : ℚ) +
            (elemNoise b R (fun _ => -1) e ω.2 c : ℚ)) (fun ω => by rw [pfksNoise]; push_cast; rfl),
        pfksDist, Var_prod_add (ksDist w n l d dk (iid N de)) _
          (fun ω : KsSample w n l α κ (Fin N → ε) =>
            (((if (c : Nat) = 0 then R * e₀ ω.1 else 0) + ∑ i, elemNoise b R X e (ω.2 i) c : Int) : ℚ))
          (fun x : BitVec w × Unit × (Fin l → Fin N → ε) => (elemNoise b R (fun _ => -1) e x c : ℚ)), h, h']
      split
      · rw [privateKeyswitchNoise]
        simp only [modVar_ofModVar]
        rw [hKv, hK, Var_eq dk]
        have h2 : (2 ^ (b * 2 * l) : ℚ) ≠ 0 := by positivity
        rw [q_split b hv, square, square, square]
        simp only [Int.cast_neg, Int.cast_one, E_const]
        push_cast
        field_simp
        ring
      · rw [keyswitchNoiseNonConstant]
        simp only [modVar_ofModVar]
        rw [show 2 * b = b * 2 by ring, pow_mul]
        push_cast
        ring
    exact ⟨_, rfl, _, rfl, key, gap_bound b hv de e _ _ (n + 1) key⟩

/-! ### The hypotheses can be met -/

/-- Every draw has a key with the drawn noises. -/
theorem exists_keyEnc (hN : 0 < N) (b : Nat) (key : List (BitVec w)) (M : Nat → Rq (BitVec w) N)
    (err : Nat → Nat → Rq (BitVec w) N) : ∃ ksk, KeyEnc N k b l n key ksk M err := by
  choose v hv1 hv2 using fun i j => exists_toRq hN (M i * 2 ^ (w - b * (j + 1)) + err i j)
  let row : Nat → List (BitVec w) := fun r => List.replicate (k * N) 0 ++ v (r / l) (r % l)
  have hrow : ∀ r, (row r).length = (k + 1) * N := by
    intro r; simp only [row, List.length_append, List.length_replicate, hv1]; ring
  refine ⟨((List.range (n * l)).map row).flatten, ?_, ?_⟩
  · rw [flatten_length_uniform ((k + 1) * N)]
    · simp; ring
    · intro x hx
      obtain ⟨j, -, rfl⟩ := List.mem_map.1 hx
      exact hrow j
  · intro i hi j hj
    have hlt : i * l + j < n * l := by
      have h1 : (i + 1) * l ≤ n * l := Nat.mul_le_mul_right l hi
      rw [Nat.succ_mul] at h1; omega
    have h1 : block ((k + 1) * N) ((List.range (n * l)).map row).flatten (i * l + j) = row (i * l + j) := by
      apply block_flatten _ (by positivity)
      · intro x hx
        obtain ⟨j, -, rfl⟩ := List.mem_map.1 hx
        exact hrow j
      · simp [List.getElem?_range hlt]
    have hl : 0 < l := by omega
    have hd : (i * l + j) / l = i := by
      rw [Nat.mul_comm, Nat.mul_add_div hl, Nat.div_eq_of_lt hj, Nat.add_zero]
    have hm : (i * l + j) % l = j := by
      rw [Nat.mul_comm, Nat.mul_add_mod, Nat.mod_eq_of_lt hj]
    rw [h1, glwePhase, ← hv2]
    have hb : block N (row (i * l + j)) k = v i j := by
      simp only [block, row, hd, hm]
      rw [List.drop_append_of_le_length (by simp), List.drop_of_length_le (by simp), List.nil_append,
        List.take_of_length_le (by rw [hv1])]
    have hz : ∀ t ∈ Finset.range k, toRq N (block N (row (i * l + j)) t) * toRq N (block N key t) = 0 := by
      intro t ht
      have ht' := Finset.mem_range.1 ht
      have hle : (t + 1) * N ≤ k * N := Nat.mul_le_mul_right N ht'
      rw [Nat.succ_mul] at hle
      have : block N (row (i * l + j)) t = List.replicate N 0 := by
        simp only [block, row]
        rw [List.drop_append_of_le_length (by simp; omega), List.drop_replicate,
          List.take_append_of_le_length (by simp; omega), List.take_replicate]
        congr 1; omega
      rw [this, toRq_zero, zero_mul]
    rw [hb, Finset.sum_eq_zero hz, sub_zero]

-- so the keys of both theorems exist for every draw
example (hN : 0 < N) (b : Nat) (X : κ → Int) (e : ε → Int) (key : List (BitVec w)) :
    (∃ ksk : KsSample w n l α κ (Fin N → ε) → List (BitVec w), ∀ ω, IsPacking k b X e key (ksk ω) ω) ∧
    ∀ R, ∃ ksk : PfksSample w n N l α κ ε → List (BitVec w), ∀ ω, IsPfks k b R X e key (ksk ω) ω :=
  ⟨⟨fun ω => (exists_keyEnc hN b key _ (packErr e ω)).choose,
    fun ω => (exists_keyEnc hN b key _ (packErr e ω)).choose_spec⟩, fun _ =>
    ⟨fun ω => (exists_keyEnc hN b key _ (pfksErr e ω)).choose,
      fun ω => (exists_keyEnc hN b key _ (pfksErr e ω)).choose_spec⟩⟩

-- the bounds for a 64-bit parameter set: dimension 2048, 2 levels of 10 bits, R = -1, noises up to 2^30
example : ValidParams 64 10 2 ∧ 2 ^ 30 + (2048 + 1) * (1 * 2 ^ (64 - 10 * 2 - 1) + 2 * (2 ^ (10 - 1) * 2 ^ 30)) <
    2 ^ (64 - 1) := ⟨⟨by decide, by decide, by decide⟩, by norm_num⟩

end Verif.Npe
