import Verif.Npe.Digits
import Verif.Npe.KeyProps
import Mathlib.Algebra.Order.BigOperators.Group.Finset
import Mathlib.Algebra.Ring.GeomSum
/-
C98: the noise of the keyswitch of the model, over a uniform mask, a random input key and random noises,
against the estimate of `estimate_keyswitch_noise_lwe_to_glwe_with_constant_terms`.
-/
namespace Verif.Npe
open Verif.Decomp Verif.BV Verif.Lwe Dist

variable {w n l : Nat} {α κ ε : Type} [Fintype α] [Fintype κ] [Fintype ε]

/-! ### The random experiment -/

/-- What is drawn: the noise of the input, and for each of the `n` mask elements a word, a coefficient of
the input key and the noises of the `l` rows of the keyswitch key for this coefficient. -/
abbrev KsSample (w n l : Nat) (α κ ε : Type) := α × (Fin n → BitVec w × κ × (Fin l → ε))

/-- All draws are independent; the mask is uniform. -/
def ksDist (w n l : Nat) (d : Dist α) (dk : Dist κ) (de : Dist ε) : Dist (KsSample w n l α κ ε) :=
  d.prod (iid n ((uniform (BitVec w)).prod (dk.prod (iid l de))))

/-- The input key. -/
def keyOf (X : κ → Int) (ω : KsSample w n l α κ ε) : List (BitVec w) :=
  List.ofFn fun i => ((X (ω.2 i).2.1 : Int) : BitVec w)

/-- The input ciphertext: the drawn mask, and the body which makes it an encryption of `m` with the drawn
noise. -/
def inputOf (X : κ → Int) (e₀ : α → Int) (m : BitVec w) (ω : KsSample w n l α κ ε) : List (BitVec w) :=
  (List.ofFn fun i => (ω.2 i).1) ++
    [(∑ i, (ω.2 i).1 * ((X (ω.2 i).2.1 : Int) : BitVec w)) + m + ((e₀ ω.1 : Int) : BitVec w)]

/-- `ksk` is a keyswitch key of the drawn input key with the drawn noises: row `(i, k)` encrypts
`s_i 2^(w - b(k+1))` under `s'` with noise `e i k`. -/
def IsKsk (b : Nat) (X : κ → Int) (e : ε → Int) (s' ksk : List (BitVec w)) (ω : KsSample w n l α κ ε) :
    Prop :=
  ksk.length = n * (l * (s'.length + 1)) ∧ ∀ (i : Fin n) (k : Fin l),
    phase s' (block (s'.length + 1) ksk (i * l + k)) =
      ((X (ω.2 i).2.1 : Int) : BitVec w) * ((2 ^ (w - b * (k + 1)) : Nat) : BitVec w) +
        ((e ((ω.2 i).2.2 k) : Int) : BitVec w)

/-! ### Proofs -/

omit [Fintype α] [Fintype κ] [Fintype ε] in
theorem input_phase (X : κ → Int) (e₀ : α → Int) (m : BitVec w) (ω : KsSample w n l α κ ε) :
    Fits (keyOf X ω) (inputOf X e₀ m ω) ∧
      phase (keyOf X ω) (inputOf X e₀ m ω) = m + ((e₀ ω.1 : Int) : BitVec w) := by
  have hl : (keyOf X ω).length = n := by simp [keyOf]
  refine ⟨by simp [Fits, keyOf, inputOf], ?_⟩
  rw [phase, hl]
  have hb : (inputOf X e₀ m ω).getD n 0 =
      (∑ i, (ω.2 i).1 * ((X (ω.2 i).2.1 : Int) : BitVec w)) + m + ((e₀ ω.1 : Int) : BitVec w) := by
    simp [inputOf, List.getD_eq_getElem?_getD]
  have hs : ∀ i : Fin n, (inputOf X e₀ m ω).getD (i : Nat) 0 * (keyOf X ω).getD (i : Nat) 0 =
      (ω.2 i).1 * ((X (ω.2 i).2.1 : Int) : BitVec w) := by
    intro i
    simp [inputOf, keyOf, List.getD_eq_getElem?_getD, List.getElem?_append_left]
  rw [hb, Finset.sum_range, Finset.sum_congr rfl fun i _ => hs i]
  ring

/-- The noise of one mask element. -/
def partNoise (b l : Nat) (X : κ → Int) (e : ε → Int) (x : BitVec w × κ × (Fin l → ε)) : Int :=
  X x.2.1 * roundErr b l x.1 -
    ∑ k : Fin l, (ksDigit b l x.1 (l - 1 - k)).toInt * e (x.2.2 k)

/-- The whole noise. -/
def totalNoise (b : Nat) (X : κ → Int) (e₀ : α → Int) (e : ε → Int) (ω : KsSample w n l α κ ε) : Int :=
  e₀ ω.1 + ∑ i, partNoise b l X e (ω.2 i)

omit [Fintype α] [Fintype κ] [Fintype ε] in
theorem ks_phase (b : Nat) (hv : ValidParams w b l) (X : κ → Int) (e₀ : α → Int) (e : ε → Int)
    (m : BitVec w) (s' after ksk : List (BitVec w)) (ha : Fits s' after) (ω : KsSample w n l α κ ε)
    (hk : IsKsk b X e s' ksk ω) :
    ∃ r, keyswitchCiphertext b l (s'.length + 1) ksk after (inputOf X e₀ m ω) = some r ∧
      phase s' r = m + ((totalNoise b X e₀ e ω : Int) : BitVec w) := by
  obtain ⟨r, hr, -, hp⟩ := keyswitch_phase b l hv.level n s' ksk after (List.ofFn fun i => (ω.2 i).1)
    ((∑ i, (ω.2 i).1 * ((X (ω.2 i).2.1 : Int) : BitVec w)) + m + ((e₀ ω.1 : Int) : BitVec w)) hk.1 ha
    (by simp)
  refine ⟨r, hr, ?_⟩
  rw [hp, Finset.sum_range]
  have hin : ∀ i : Fin n, ∑ j ∈ Finset.range l,
      phase s' (block (s'.length + 1) ksk (i * l + (l - 1 - j))) *
        ksDigit b l ((List.ofFn fun i => (ω.2 i).1).getD i 0) j =
      (ω.2 i).1 * ((X (ω.2 i).2.1 : Int) : BitVec w) -
        ((partNoise b l X e (ω.2 i) : Int) : BitVec w) := by
    intro i
    have ha : (List.ofFn fun i => (ω.2 i).1).getD (i : Nat) 0 = (ω.2 i).1 := by
      simp [List.getD_eq_getElem?_getD]
    rw [ha]
    obtain ⟨dg, -, hd2, hd3⟩ := ksDigit_spec b l hv (ω.2 i).1
    rw [← Finset.sum_range_reflect, Finset.sum_range]
    have hterm : ∀ k : Fin l,
        phase s' (block (s'.length + 1) ksk (i * l + (l - 1 - (l - 1 - k)))) *
          ksDigit b l (ω.2 i).1 (l - 1 - k) =
        ((X (ω.2 i).2.1 : Int) : BitVec w) *
          (((dg k : Int) : BitVec w) * ((2 ^ (w - b * (k + 1)) : Nat) : BitVec w)) +
        (((ksDigit b l (ω.2 i).1 (l - 1 - k)).toInt * e ((ω.2 i).2.2 k) : Int) : BitVec w) := by
      intro k
      have hk' := k.2
      rw [show l - 1 - (l - 1 - (k : Nat)) = k by omega, hk.2 i k]
      push_cast
      rw [intCast_toInt, hd2 (l - 1 - k) (by omega), show l - 1 - (l - 1 - (k : Nat)) = k by omega]
      ring
    rw [Finset.sum_congr rfl fun k _ => hterm k, Finset.sum_add_distrib, ← Finset.mul_sum,
      ← Finset.sum_range (fun k => ((dg k : Int) : BitVec w) * ((2 ^ (w - b * (k + 1)) : Nat) : BitVec w)),
      hd3, partNoise]
    have hre : ((roundErr b l (ω.2 i).1 : Int) : BitVec w) =
        (ω.2 i).1 - closestRepresentable b l (ω.2 i).1 := by
      rw [roundErr, signedDiff, intCast_toInt]
    push_cast
    rw [hre]
    ring
  rw [Finset.sum_congr rfl fun i _ => hin i, Finset.sum_sub_distrib, totalNoise]
  push_cast
  ring

theorem partNoise_E (b : Nat) (hv : ValidParams w b l) (dk : Dist κ) (de : Dist ε) (X : κ → Int)
    (e : ε → Int) (he : de.E (fun x => (e x : ℚ)) = 0) :
    ((uniform (BitVec w)).prod (dk.prod (iid l de))).E (fun x => (partNoise b l X e x : ℚ)) =
      -(1 / 2) * dk.E (fun x => (X x : ℚ)) ∧
    ((uniform (BitVec w)).prod (dk.prod (iid l de))).E (fun x => (partNoise b l X e x : ℚ) ^ 2) =
      ((2 ^ (w - b * l) : ℚ) ^ 2 + 2) / 12 * dk.E (fun x => (X x : ℚ) ^ 2) +
        de.Var (fun x => (e x : ℚ)) * ∑ j ∈ Finset.range l, meanSq (2 ^ b) j := by
  have hform : ∀ (a : BitVec w) (y : κ × (Fin l → ε)), (partNoise b l X e (a, y) : ℚ) =
      (roundErr b l a : ℚ) * (X y.1 : ℚ) +
        ∑ k : Fin l, (-((ksDigit b l a (l - 1 - k)).toInt : ℚ)) * (e (y.2 k) : ℚ) := by
    intro a y
    rw [partNoise]
    push_cast
    simp only [neg_mul, Finset.sum_neg_distrib]
    ring
  have hE : ∀ a : BitVec w, (dk.prod (iid l de)).E (fun y => (partNoise b l X e (a, y) : ℚ)) =
      (roundErr b l a : ℚ) * dk.E (fun x => (X x : ℚ)) := by
    intro a
    rw [E_congr _ (hform a), E_add, E_prod_fst dk (iid l de) (fun x => (roundErr b l a : ℚ) * (X x : ℚ)),
      E_mul_left, E_prod_snd dk (iid l de)
        (fun z => ∑ k : Fin l, (-((ksDigit b l a (l - 1 - k)).toInt : ℚ)) * (e (z k) : ℚ)), E_sum,
      Finset.sum_eq_zero, add_zero]
    intro k _
    rw [iid, E_pi_one (fun _ => de) k (fun x => (-((ksDigit b l a (l - 1 - k)).toInt : ℚ)) * (e x : ℚ)),
      E_mul_left, he, mul_zero]
  have hV : ∀ a : BitVec w, (dk.prod (iid l de)).Var (fun y => (partNoise b l X e (a, y) : ℚ)) =
      (roundErr b l a : ℚ) ^ 2 * dk.Var (fun x => (X x : ℚ)) +
        ∑ k : Fin l, ((ksDigit b l a (l - 1 - k)).toInt : ℚ) ^ 2 * de.Var (fun x => (e x : ℚ)) := by
    intro a
    have hs : ∀ {β : Type} [Fintype β] (d : Dist β) (c : ℚ) (Y : β → ℚ),
        d.Var (fun x => c * Y x) = c ^ 2 * d.Var Y := by
      intro β _ d c Y
      rw [Var_eq, Var_eq, E_mul_left, E_congr d (Y := fun x => c ^ 2 * Y x ^ 2) (fun x => by ring),
        E_mul_left]
      ring
    rw [Var_congr _ (hform a), Var_prod_add dk (iid l de) (fun x => (roundErr b l a : ℚ) * (X x : ℚ))
      (fun z => ∑ k : Fin l, (-((ksDigit b l a (l - 1 - k)).toInt : ℚ)) * (e (z k) : ℚ)), hs, iid,
      Var_pi_sum (fun _ => de)
        (fun (k : Fin l) x => (-((ksDigit b l a (l - 1 - k)).toInt : ℚ)) * (e x : ℚ))]
    congr 1
    refine Finset.sum_congr rfl fun k _ => ?_
    rw [hs, neg_sq]
  refine ⟨?_, ?_⟩
  · rw [E_prod, E_congr _ hE, E_mul_right, E_roundErr b l hv]
    ring
  · rw [E_prod, E_congr _ (Y := fun a => (roundErr b l a : ℚ) ^ 2 * dk.E (fun x => (X x : ℚ) ^ 2) +
      ∑ k : Fin l, ((ksDigit b l a (l - 1 - k)).toInt : ℚ) ^ 2 * de.Var (fun x => (e x : ℚ)))
      (fun a => by
        have h1 := hV a
        rw [Var_eq, hE, Var_eq dk] at h1
        linarith), E_add, E_mul_right, E_roundErr_sq b l hv, E_sum]
    congr 1
    rw [Finset.sum_congr rfl fun (k : Fin l) _ => by
      rw [E_mul_right, E_ksDigit_sq b l (l - 1 - k) hv (by have := k.2; omega)],
      ← Finset.sum_mul, ← Finset.sum_range (fun k => meanSq (2 ^ b) (l - 1 - k)),
      Finset.sum_range_reflect (fun k => meanSq (2 ^ b) k), mul_comm]

/-- How much smaller than `l (B² + 2) / 12` the expected squares of the `l` digits are. -/
def digitGap (B : ℚ) (l : Nat) : ℚ := ∑ j ∈ Finset.range l, 1 / 4 * ∑ i ∈ Finset.range j, (-1 / B) ^ i

theorem sum_meanSq (B : ℚ) (l : Nat) :
    ∑ j ∈ Finset.range l, meanSq B j = l * ((B ^ 2 + 2) / 12) - digitGap B l := by
  simp only [meanSq, digitGap, Finset.sum_sub_distrib, Finset.sum_const, Finset.card_range,
    nsmul_eq_mul]

theorem geom_bounds (B : ℚ) (hB : 2 ≤ B) (j : Nat) :
    0 ≤ ∑ i ∈ Finset.range j, (-1 / B) ^ i ∧ ∑ i ∈ Finset.range j, (-1 / B) ^ i ≤ 1 ∧
      (0 < j → 1 / 2 ≤ ∑ i ∈ Finset.range j, (-1 / B) ^ i) := by
  have h1 : -1 / B ≤ 0 := by
    rw [div_le_iff₀ (by linarith)]; linarith
  have h2 : -(1 / 2) ≤ -1 / B := by
    rw [le_div_iff₀ (by linarith)]; linarith
  induction j with
  | zero => simp
  | succ j ih =>
    rw [geom_sum_succ]
    obtain ⟨a, c, -⟩ := ih
    generalize ∑ i ∈ Finset.range j, (-1 / B) ^ i = G at *
    have h3 : -1 / B * G ≤ 0 := mul_nonpos_of_nonpos_of_nonneg h1 a
    have h4 : -(1 / 2) ≤ -1 / B * G := by nlinarith
    exact ⟨by linarith, by linarith, fun _ => by linarith⟩

theorem digitGap_nonneg (B : ℚ) (hB : 2 ≤ B) (l : Nat) : 0 ≤ digitGap B l :=
  Finset.sum_nonneg fun j _ => mul_nonneg (by norm_num) (geom_bounds B hB j).1

theorem digitGap_pos (B : ℚ) (hB : 2 ≤ B) (l : Nat) (hl : 2 ≤ l) : 0 < digitGap B l := by
  refine Finset.sum_pos' (fun j _ => mul_nonneg (by norm_num) (geom_bounds B hB j).1) ⟨1, ?_, ?_⟩
  · exact Finset.mem_range.2 (by omega)
  · have := (geom_bounds B hB 1).2.2 (by omega)
    linarith

theorem base_ge (b : Nat) (hb : 0 < b) : (2 : ℚ) ≤ 2 ^ b := by
  have : 2 ^ 1 ≤ 2 ^ b := Nat.pow_le_pow_right (by omega) hb
  exact_mod_cast this

omit [Fintype α] [Fintype κ] [Fintype ε] in
theorem totalNoise_bound (b : Nat) (hv : ValidParams w b l) (X : κ → Int) (e₀ : α → Int) (e : ε → Int)
    (A₀ A₁ A₂ : Nat) (h₀ : ∀ x, |e₀ x| ≤ A₀) (h₁ : ∀ x, |X x| ≤ A₁) (h₂ : ∀ x, |e x| ≤ A₂)
    (ω : KsSample w n l α κ ε) :
    |totalNoise b X e₀ e ω| ≤ A₀ + n * (A₁ * 2 ^ (w - b * l - 1) + l * (2 ^ (b - 1) * A₂)) := by
  have hpart : ∀ x : BitVec w × κ × (Fin l → ε),
      |partNoise b l X e x| ≤ A₁ * 2 ^ (w - b * l - 1) + l * (2 ^ (b - 1) * A₂) := by
    intro x
    obtain ⟨dg, hd1, hd2, -⟩ := ksDigit_spec b l hv x.1
    have hbw : b < w := by
      have h1 := hv.fits
      have h2 := Nat.le_mul_of_pos_right b hv.level
      omega
    have hmono : (2 ^ (b - 1) : Int) < 2 ^ (w - 1) := by
      have := hv.base
      exact_mod_cast Nat.pow_lt_pow_right (by omega) (by omega)
    refine (abs_sub _ _).trans (add_le_add ?_ ((Finset.abs_sum_le_sum_abs _ _).trans ?_))
    · rw [abs_mul]
      refine mul_le_mul (h₁ _) ?_ (abs_nonneg _) (by positivity)
      obtain ⟨-, g1, g2⟩ := closest_signed b l hv x.1
      rw [roundErr, abs_le]
      exact ⟨g1, g2.le⟩
    · refine (Finset.sum_le_card_nsmul Finset.univ _ ((2 ^ (b - 1) * A₂ : Int))
        (fun k _ => ?_)).trans (by simp)
      rw [abs_mul]
      have hk := k.2
      refine mul_le_mul ?_ (h₂ _) (abs_nonneg _) (by positivity)
      have hb' := hd1 (l - 1 - (l - 1 - k)) (by omega)
      rw [hd2 (l - 1 - k) (by omega), toInt_cast_of_bounds _ (by linarith) (by linarith) (by omega), abs_le]
      exact hb'
  rw [totalNoise]
  refine (abs_add_le _ _).trans (add_le_add (h₀ _) ((Finset.abs_sum_le_sum_abs _ _).trans ?_))
  refine (Finset.sum_le_card_nsmul _ _ _ (fun i _ => hpart (ω.2 i))).trans (by simp)

/-- C98. Keyswitch with uniform masks, an input key whose coefficients have the mean and variance of the
kind of key `K`, and centred noises in the keyswitch key; `A₀`, `A₁`, `A₂` bound the input noise, the key
coefficients and the noises of the keyswitch key, so that the noise does not wrap. Every draw is switched
without panic; the variance of the noise of the output (the signed distance of its phase to `m`) is the
estimate minus `n σ² digitGap`, so that it never exceeds the estimate, equals it for one level, and is
strictly smaller for more levels (unless the keyswitch key has no noise). -/
theorem C98_keyswitch (b : Nat) (hv : ValidParams w b l) (K : KeyDispersion) (d : Dist α) (dk : Dist κ)
    (de : Dist ε) (e₀ : α → Int) (X : κ → Int) (e : ε → Int)
    (hK : K.expCoef = dk.E fun x => (X x : ℚ)) (hKv : modVar (K.varCoef w) w = dk.Var fun x => (X x : ℚ))
    (he : de.E (fun x => (e x : ℚ)) = 0)
    (A₀ A₁ A₂ : Nat) (h₀ : ∀ x, |e₀ x| ≤ A₀) (h₁ : ∀ x, |X x| ≤ A₁) (h₂ : ∀ x, |e x| ≤ A₂)
    (hsmall : A₀ + n * (A₁ * 2 ^ (w - b * l - 1) + l * (2 ^ (b - 1) * A₂)) < 2 ^ (w - 1))
    (m : BitVec w) (s' after : List (BitVec w)) (ha : Fits s' after)
    (ksk : KsSample w n l α κ ε → List (BitVec w)) (hk : ∀ ω, IsKsk b X e s' (ksk ω) ω) :
    ∃ out : KsSample w n l α κ ε → List (BitVec w),
      (∀ ω, keyswitchCiphertext b l (s'.length + 1) (ksk ω) after (inputOf X e₀ m ω) = some (out ω)) ∧
      ∃ V, V = (ksDist w n l d dk de).Var (fun ω => ((phase s' (out ω) - m).toInt : ℚ)) ∧
      ∃ est, est = modVar (keyswitchNoise K n (ofModVar (d.Var fun x => (e₀ x : ℚ)) w)
          (ofModVar (de.Var fun x => (e x : ℚ)) w) b l w) w ∧
      V = est - n * (de.Var fun x => (e x : ℚ)) * digitGap (2 ^ b) l ∧
      V ≤ est ∧ (l = 1 → V = est) ∧
      (2 ≤ l → 0 < n → 0 < (de.Var fun x => (e x : ℚ)) → V < est) := by
  have hbw : 0 < w := by have := hv.fits; omega
  choose out ho hp using fun ω => ks_phase b hv X e₀ e m s' after (ksk ω) ha ω (hk ω)
  refine ⟨out, ho, _, rfl, _, rfl, ?_⟩
  have hsm : ((A₀ + n * (A₁ * 2 ^ (w - b * l - 1) + l * (2 ^ (b - 1) * A₂)) : Nat) : Int) <
      ((2 ^ (w - 1) : Nat) : Int) := by exact_mod_cast hsmall
  push_cast at hsm
  have hN : ∀ ω : KsSample w n l α κ ε, ((phase s' (out ω) - m).toInt : ℚ) =
      (e₀ ω.1 : ℚ) + ∑ i, (partNoise b l X e (ω.2 i) : ℚ) := by
    intro ω
    have hb := abs_le.1 (totalNoise_bound b hv X e₀ e A₀ A₁ A₂ h₀ h₁ h₂ ω)
    rw [hp, add_sub_cancel_left, toInt_cast_of_bounds _ (by linarith [hb.1]) (by linarith [hb.2]) hbw,
      totalNoise]
    push_cast; rfl
  obtain ⟨hE1, hE2⟩ := partNoise_E b hv dk de X e he
  have hV : (ksDist w n l d dk de).Var (fun ω => ((phase s' (out ω) - m).toInt : ℚ)) =
      d.Var (fun x => (e₀ x : ℚ)) + n * (((2 ^ (w - b * l) : ℚ) ^ 2 + 2) / 12 * dk.E (fun x => (X x : ℚ) ^ 2)
        + de.Var (fun x => (e x : ℚ)) * (l * (((2 ^ b : ℚ) ^ 2 + 2) / 12) - digitGap (2 ^ b) l) -
        (-(1 / 2) * dk.E (fun x => (X x : ℚ))) ^ 2) := by
    rw [Var_congr _ hN, ksDist, Var_prod_add d _ (fun x => (e₀ x : ℚ))
      (fun z : Fin n → BitVec w × κ × (Fin l → ε) => ∑ i, (partNoise b l X e (z i) : ℚ)), iid,
      Var_pi_sum (fun _ => (uniform (BitVec w)).prod (dk.prod (iid l de)))
        (fun _ x => (partNoise b l X e x : ℚ)), Finset.sum_const, Finset.card_univ, Fintype.card_fin,
      nsmul_eq_mul, Var_eq (d := (uniform (BitVec w)).prod (dk.prod (iid l de))), hE1, hE2, sum_meanSq]
  have hest : modVar (keyswitchNoise K n (ofModVar (d.Var fun x => (e₀ x : ℚ)) w)
          (ofModVar (de.Var fun x => (e x : ℚ)) w) b l w) w =
      d.Var (fun x => (e₀ x : ℚ)) + n * (((2 ^ (w - b * l) : ℚ) ^ 2 + 2) / 12 * dk.E (fun x => (X x : ℚ) ^ 2)
        + de.Var (fun x => (e x : ℚ)) * (l * (((2 ^ b : ℚ) ^ 2 + 2) / 12)) -
        (-(1 / 2) * dk.E (fun x => (X x : ℚ))) ^ 2) := by
    rw [keyswitchNoise]
    simp only [modVar_ofModVar]
    rw [hKv, hK, Var_eq dk]
    have hq : (2 ^ (2 * w) : ℚ) = (2 ^ (w - b * l) : ℚ) ^ 2 * 2 ^ (b * 2 * l) := by
      rw [← pow_mul, ← pow_add]; congr 1
      have := hv.fits
      rw [show b * 2 * l = b * l * 2 by ring]; omega
    have h2 : (2 ^ (b * 2 * l) : ℚ) ≠ 0 := by positivity
    rw [hq, square, square]
    field_simp
    ring
  have hB := base_ge b hv.base
  have hVar : 0 ≤ de.Var fun x => (e x : ℚ) :=
    Finset.sum_nonneg fun x _ => mul_nonneg (de.nonneg x) (sq_nonneg _)
  have key : (ksDist w n l d dk de).Var (fun ω => ((phase s' (out ω) - m).toInt : ℚ)) =
      modVar (keyswitchNoise K n (ofModVar (d.Var fun x => (e₀ x : ℚ)) w)
          (ofModVar (de.Var fun x => (e x : ℚ)) w) b l w) w -
        n * (de.Var fun x => (e x : ℚ)) * digitGap (2 ^ b) l := by
    rw [hV, hest]; ring
  refine ⟨key, ?_, ?_, ?_⟩
  · rw [key]
    have := mul_nonneg (mul_nonneg (Nat.cast_nonneg (α := ℚ) n) hVar) (digitGap_nonneg _ hB l)
    linarith
  · rintro rfl
    rw [key]
    simp [digitGap]
  · intro hl hn hpos
    rw [key]
    have := mul_pos (mul_pos (Nat.cast_pos (α := ℚ) |>.2 hn) hpos) (digitGap_pos _ hB l hl)
    linarith

-- the hypotheses hold for binary keys and a parameter set of 32 bits: dimension 500, 4 levels of 3 bits,
-- noises of absolute value at most 2^15
example : (ValidParams 32 3 4) ∧ 2 ^ 15 + 500 * (1 * 2 ^ (32 - 3 * 4 - 1) + 4 * (2 ^ (3 - 1) * 2 ^ 15)) <
    2 ^ (32 - 1) := ⟨⟨by decide, by decide, by decide⟩, by decide⟩

-- every draw has a keyswitch key: the rows with an empty mask
example (b : Nat) (X : κ → Int) (e : ε → Int) (ω : KsSample w n l α κ ε) :
    ∃ ksk, IsKsk b X e ([] : List (BitVec w)) ksk ω := by
  refine ⟨List.ofFn fun r : Fin (n * l) =>
    ((X (ω.2 r.divNat).2.1 : Int) : BitVec w) * ((2 ^ (w - b * (r.modNat + 1)) : Nat) : BitVec w) +
      ((e ((ω.2 r.divNat).2.2 r.modNat) : Int) : BitVec w), by simp, ?_⟩
  intro i k
  have hlt : (i : Nat) * l + k < n * l := by
    have h1 : ((i : Nat) + 1) * l ≤ n * l := Nat.mul_le_mul_right l i.2
    have h2 := k.2
    rw [Nat.succ_mul] at h1
    omega
  have hd : (⟨(i : Nat) * l + k, hlt⟩ : Fin (n * l)).divNat = i := by
    ext; simp [Fin.divNat, Nat.add_div_of_dvd_right (Nat.dvd_mul_left l i),
      Nat.mul_div_cancel _ (Nat.lt_of_le_of_lt (Nat.zero_le _) k.2), Nat.div_eq_of_lt k.2]
  have hm : (⟨(i : Nat) * l + k, hlt⟩ : Fin (n * l)).modNat = k := by
    ext; simp [Fin.modNat, Nat.mod_eq_of_lt k.2]
  simp [phase, block, List.getD_eq_getElem?_getD, hlt, hd, hm, Nat.mod_eq_of_lt k.2]

end Verif.Npe
