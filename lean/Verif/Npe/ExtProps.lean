import Verif.Npe.ExtLemmas
/-
C99: the noise of the external product of the model with a GGSW ciphertext of a random bit, against the
estimate of `estimate_external_product_noise_with_binary_ggsw`.
-/
namespace Verif.Npe
open Verif.Poly Verif.Decomp Verif.BV Verif.Glwe Verif.Lwe Dist

variable {w N k l : Nat} {α β κ ε : Type} [Fintype α] [Fintype β] [Fintype κ] [Fintype ε]

/-! ### Linear combinations of independent draws -/

theorem Var_cmul (d : Dist β) (c : ℚ) (Y : β → ℚ) : d.Var (fun x => c * Y x) = c ^ 2 * d.Var Y := by
  rw [Var_eq, Var_eq, E_mul_left, E_congr d (Y := fun x => c ^ 2 * Y x ^ 2) (fun x => by ring),
    E_mul_left]
  ring

theorem Var_const_add (d : Dist β) (c : ℚ) (Y : β → ℚ) : d.Var (fun x => c + Y x) = d.Var Y := by
  rw [Var, Var, E_add, E_const]
  exact E_congr d fun x => by ring

theorem E_lin1 (d : Dist β) (Y : β → ℚ) (cf : Fin N → ℚ) :
    (iid N d).E (fun z => ∑ a, cf a * Y (z a)) = (∑ a, cf a) * d.E Y := by
  rw [E_sum, Finset.sum_mul]
  refine Finset.sum_congr rfl fun a _ => ?_
  rw [iid, E_pi_one (fun _ => d) a (fun x => cf a * Y x), E_mul_left]

theorem Var_lin1 (d : Dist β) (Y : β → ℚ) (cf : Fin N → ℚ) :
    (iid N d).Var (fun z => ∑ a, cf a * Y (z a)) = (∑ a, cf a ^ 2) * d.Var Y := by
  rw [iid, Var_pi_sum (fun _ => d) (fun a x => cf a * Y x), Finset.sum_mul]
  exact Finset.sum_congr rfl fun a _ => Var_cmul d _ Y

theorem E_lin2 {m : Nat} (d : Dist β) (Y : β → ℚ) (cf : Fin m → Fin N → ℚ) :
    (iid m (iid N d)).E (fun z => ∑ r, ∑ a, cf r a * Y (z r a)) = (∑ r, ∑ a, cf r a) * d.E Y := by
  rw [E_sum, Finset.sum_mul]
  refine Finset.sum_congr rfl fun r _ => ?_
  rw [iid, E_pi_one (fun _ => iid N d) r (fun z => ∑ a, cf r a * Y (z a)), E_lin1]

theorem Var_lin2 {m : Nat} (d : Dist β) (Y : β → ℚ) (cf : Fin m → Fin N → ℚ) :
    (iid m (iid N d)).Var (fun z => ∑ r, ∑ a, cf r a * Y (z r a)) = (∑ r, ∑ a, cf r a ^ 2) * d.Var Y := by
  rw [iid, Var_pi_sum (fun _ => iid N d) (fun r z => ∑ a, cf r a * Y (z a)), Finset.sum_mul]
  exact Finset.sum_congr rfl fun r _ => Var_lin1 d Y _

theorem E_lin3 {m p : Nat} (d : Dist β) (Y : β → ℚ) (cf : Fin p → Fin m → Fin N → ℚ) :
    (iid p (iid m (iid N d))).E (fun z => ∑ j, ∑ r, ∑ a, cf j r a * Y (z j r a)) =
      (∑ j, ∑ r, ∑ a, cf j r a) * d.E Y := by
  rw [E_sum, Finset.sum_mul]
  refine Finset.sum_congr rfl fun j _ => ?_
  rw [iid, E_pi_one (fun _ => iid m (iid N d)) j (fun z => ∑ r, ∑ a, cf j r a * Y (z r a)), E_lin2]

theorem Var_lin3 {m p : Nat} (d : Dist β) (Y : β → ℚ) (cf : Fin p → Fin m → Fin N → ℚ) :
    (iid p (iid m (iid N d))).Var (fun z => ∑ j, ∑ r, ∑ a, cf j r a * Y (z j r a)) =
      (∑ j, ∑ r, ∑ a, cf j r a ^ 2) * d.Var Y := by
  rw [iid, Var_pi_sum (fun _ => iid m (iid N d)) (fun j z => ∑ r, ∑ a, cf j r a * Y (z r a)),
    Finset.sum_mul]
  exact Finset.sum_congr rfl fun j _ => Var_lin2 d Y _

/-! ### The two parts of the noise -/

theorem sum_partner (c : Fin N) (f : Fin N → ℚ) : ∑ a, f (partner c a) = ∑ a, f a := by
  let σ : Equiv.Perm (Fin N) :=
    ⟨partner c, partner c, partner_partner c c.2, partner_partner c c.2⟩
  exact Equiv.sum_comp σ f

theorem sum_eps_coef (c : Fin N) : ∑ a : Fin N, eps c a = 2 * (c : ℚ) + 2 - N := by
  rw [← Finset.sum_range (fun a => eps c a)]
  have : ∀ m, ∑ a ∈ Finset.range m, eps c a =
      if m ≤ (c : Nat) + 1 then (m : ℚ) else 2 * (c : ℚ) + 2 - m := by
    intro m
    induction m with
    | zero => simp
    | succ m ih =>
      rw [Finset.sum_range_succ, ih, eps]
      by_cases h : m ≤ (c : Nat)
      · rw [if_pos (by omega), if_pos h, if_pos (by omega)]; push_cast; ring
      · rw [if_neg h]
        by_cases h2 : m = (c : Nat) + 1
        · rw [if_pos (by omega), if_neg (by omega), h2]; push_cast; ring
        · rw [if_neg (by omega), if_neg (by omega)]; push_cast; ring
  rw [this]
  have := c.2
  split
  · have h : N = (c : Nat) + 1 := by omega
    have h' : (N : ℚ) = (c : Nat) + 1 := by exact_mod_cast h
    linarith
  · rfl

/-- The coefficients of the rounding errors in the noise. -/
def roundCf (X : κ → Int) (key : Fin k → Fin N → κ) (c : Fin N) (r : Fin (k + 1)) (a : Fin N) : ℚ :=
  if h : r.val < k then eps c a * (X (key ⟨r.val, h⟩ (partner c a)) : ℚ) else if a = c then -1 else 0

omit [Fintype α] [Fintype κ] [Fintype ε] in
theorem roundNoise_rat (b : Nat) (X : κ → Int) (ω : EpSample w N k l α κ ε) (c : Fin N) :
    (roundNoise b X ω c : ℚ) = ∑ r, ∑ a, roundCf X ω.key c r a * (roundErr b l (ω.ct r a) : ℚ) := by
  rw [roundNoise, Fin.sum_univ_castSucc]
  push_cast
  have hl : ∑ a, roundCf X ω.key c (Fin.last k) a * (roundErr b l (ω.ct (Fin.last k) a) : ℚ) =
      -(roundErr b l (ω.ct (Fin.last k) c) : ℚ) := by
    rw [Finset.sum_eq_single c]
    · simp [roundCf]
    · intro a _ ha; simp [roundCf, ha]
    · simp
  rw [hl, sub_eq_add_neg]
  congr 1
  refine Finset.sum_congr rfl fun i _ => ?_
  rw [conv_rat]
  refine Finset.sum_congr rfl fun a _ => ?_
  rw [roundCf, dif_pos (by simp)]
  simp only [Fin.val_castSucc, Fin.eta]
  ring

omit [Fintype κ] in
theorem roundCf_sum (X : κ → Int) (key : Fin k → Fin N → κ) (c : Fin N) :
    ∑ r, ∑ a, roundCf X key c r a = (∑ i, ∑ a : Fin N, eps c a * (X (key i a) : ℚ)) - 1 := by
  rw [Fin.sum_univ_castSucc, sub_eq_add_neg]
  congr 1
  · refine Finset.sum_congr rfl fun i _ => ?_
    rw [← sum_partner c (fun a => eps c a * (X (key i a) : ℚ))]
    refine Finset.sum_congr rfl fun a _ => ?_
    rw [roundCf, dif_pos (by simp), eps_partner c c.2]
    simp only [Fin.val_castSucc, Fin.eta]
  · rw [Finset.sum_eq_single c]
    · simp [roundCf]
    · intro a _ ha; simp [roundCf, ha]
    · simp

omit [Fintype κ] in
theorem roundCf_sq (X : κ → Int) (key : Fin k → Fin N → κ) (c : Fin N) :
    ∑ r, ∑ a, roundCf X key c r a ^ 2 = (∑ i, ∑ a, 1 * (X (key i a) : ℚ) ^ 2) + 1 := by
  rw [Fin.sum_univ_castSucc]
  congr 1
  · refine Finset.sum_congr rfl fun i _ => ?_
    rw [← sum_partner c (fun a => 1 * (X (key i a) : ℚ) ^ 2)]
    refine Finset.sum_congr rfl fun a _ => ?_
    rw [roundCf, dif_pos (by simp), mul_pow, sq (eps _ _), eps_sq]
    simp only [Fin.val_castSucc, Fin.eta]
  · rw [Finset.sum_eq_single c]
    · simp [roundCf]
    · intro a _ ha; simp [roundCf, ha]
    · simp

/-- The coefficients of the noises of the rows. -/
def rowsCf (b l : Nat) (ct : Fin (k + 1) → Fin N → BitVec w) (c : Fin N) (j : Fin l) (r : Fin (k + 1))
    (a : Fin N) : ℚ := eps c a * ((ksDigit b l (ct r (partner c a)) (l - 1 - j)).toInt : ℚ)

omit [Fintype α] [Fintype κ] [Fintype ε] in
theorem rowsNoise_rat (b : Nat) (e : ε → Int) (ω : EpSample w N k l α κ ε) (c : Fin N) :
    (rowsNoise b e ω c : ℚ) = ∑ j, ∑ r, ∑ a, rowsCf b l ω.ct c j r a * (e (ω.rows j r a) : ℚ) := by
  rw [rowsNoise]
  push_cast
  refine Finset.sum_congr rfl fun j _ => Finset.sum_congr rfl fun r _ => ?_
  rw [conv_rat]
  exact Finset.sum_congr rfl fun a _ => by rw [rowsCf]; ring

theorem rowsCf_E (b : Nat) (hv : ValidParams w b l) (c : Fin N) :
    (iid (k + 1) (iid N (uniform (BitVec w)))).E
      (fun ct => ∑ j : Fin l, ∑ r, ∑ a, rowsCf b l ct c j r a ^ 2) =
      (k + 1) * N * ∑ j ∈ Finset.range l, meanSq (2 ^ b) j := by
  rw [E_sum, ← Finset.sum_range_reflect, Finset.sum_range, Finset.mul_sum]
  refine Finset.sum_congr rfl fun j _ => ?_
  rw [E_congr _ (Y := fun ct => ∑ r, ∑ a, 1 * (((ksDigit b l (ct r a) (l - 1 - j)).toInt : ℚ)) ^ 2)
    (fun ct => Finset.sum_congr rfl fun r _ => by
      rw [← sum_partner c (fun a => 1 * (((ksDigit b l (ct r a) (l - 1 - j)).toInt : ℚ)) ^ 2)]
      refine Finset.sum_congr rfl fun a _ => ?_
      rw [rowsCf, mul_pow, sq (eps _ _), eps_sq]),
    E_lin2 (uniform (BitVec w)) (fun x => (((ksDigit b l x (l - 1 - j)).toInt : ℚ)) ^ 2) (fun _ _ => 1),
    E_ksDigit_sq b l (l - 1 - j) hv (by have := j.2; omega)]
  simp

theorem Var_roundErr (b : Nat) (hv : ValidParams w b l) :
    (uniform (BitVec w)).Var (fun x => (roundErr b l x : ℚ)) = ((2 ^ (w - b * l) : ℚ) ^ 2 - 1) / 12 := by
  rw [Var_eq, E_roundErr b l hv, E_roundErr_sq b l hv]; ring

/-! ### The variance -/

theorem ep_variance (b : Nat) (hv : ValidParams w b l) (d : Dist α) (dk : Dist κ) (de : Dist ε)
    (e₀ : α → Int) (X : κ → Int) (e : ε → Int) (h0 : d.E (fun x => (e₀ x : ℚ)) = 0)
    (he : de.E (fun x => (e x : ℚ)) = 0) (c : Fin N) :
    (epDist w N k l d dk de).Var (fun ω => (epNoise b X e₀ e ω.sample c : ℚ)) =
      1 / 2 * d.Var (fun x => (e₀ x : ℚ)) +
      ((2 ^ (w - b * l) : ℚ) ^ 2 - 1) / 24 * (1 + k * N * dk.E (fun x => (X x : ℚ) ^ 2)) +
      k * N / 8 * dk.Var (fun x => (X x : ℚ)) +
      1 / 16 * (1 - k * dk.E (fun x => (X x : ℚ)) * (2 * (c : ℚ) + 2 - N)) ^ 2 +
      de.Var (fun x => (e x : ℚ)) * ((k + 1) * N * ∑ j ∈ Finset.range l, meanSq (2 ^ b) j) := by
  set dc := iid (k + 1) (iid N (uniform (BitVec w))) with hdc
  set dn := (iid N d).prod (iid l (iid (k + 1) (iid N de))) with hdn
  set ds := iid k (iid N dk) with hds
  let B : Bool → ℚ := fun x => if x then 1 else 0
  let ρ : (Fin k → Fin N → κ) → (Fin (k + 1) → Fin N → BitVec w) → ℚ := fun s ct =>
    ∑ r, ∑ a, roundCf X s c r a * (roundErr b l (ct r a) : ℚ)
  let Q : (Fin (k + 1) → Fin N → BitVec w) → ℚ := fun ct => ∑ j : Fin l, ∑ r, ∑ a, rowsCf b l ct c j r a ^ 2
  -- for fixed bit, key and ciphertext
  have hY : ∀ (x : Bool × (Fin k → Fin N → κ)) (ct : Fin (k + 1) → Fin N → BitVec w)
      (y : (Fin N → α) × (Fin l → Fin (k + 1) → Fin N → ε)),
      (epNoise b X e₀ e (EpTuple.sample (x, ct, y)) c : ℚ) =
      (B x.1 * ρ x.2 ct + B x.1 * (e₀ (y.1 c) : ℚ)) +
        ∑ j, ∑ r, ∑ a, rowsCf b l ct c j r a * (e (y.2 j r a) : ℚ) := by
    intro x ct y
    rw [epNoise]
    push_cast
    have hr := roundNoise_rat b X (EpTuple.sample (x, ct, y)) c
    have hw := rowsNoise_rat b e (EpTuple.sample (x, ct, y)) c
    rw [hw]
    congr 1
    change (if x.1 then _ else _) = _
    rcases x with ⟨x1, x2⟩
    cases x1
    · simp [B]
    · simp only [B, if_true, one_mul]
      rw [hr, add_comm]
      rfl
  have hmean : ∀ (x : Bool × (Fin k → Fin N → κ)) (ct : Fin (k + 1) → Fin N → BitVec w),
      dn.E (fun y => (epNoise b X e₀ e (EpTuple.sample (x, ct, y)) c : ℚ)) = B x.1 * ρ x.2 ct := by
    intro x ct
    rw [E_congr dn (hY x ct), E_add, hdn,
      E_prod_fst (iid N d) _ (fun z : Fin N → α => B x.1 * ρ x.2 ct + B x.1 * (e₀ (z c) : ℚ)),
      E_prod_snd (iid N d) _ (fun z : Fin l → Fin (k + 1) → Fin N → ε =>
        ∑ j, ∑ r, ∑ a, rowsCf b l ct c j r a * (e (z j r a) : ℚ)),
      E_lin3 de (fun x => (e x : ℚ)) (fun j r a => rowsCf b l ct c j r a), he, E_add, E_const, E_mul_left, iid,
      E_pi_one (fun _ => d) c (fun x => (e₀ x : ℚ)), h0]
    ring
  have hsq : ∀ (x : Bool × (Fin k → Fin N → κ)) (ct : Fin (k + 1) → Fin N → BitVec w),
      dn.E (fun y => (epNoise b X e₀ e (EpTuple.sample (x, ct, y)) c : ℚ) ^ 2) =
        B x.1 * ρ x.2 ct ^ 2 + B x.1 * d.Var (fun x => (e₀ x : ℚ)) + Q ct * de.Var (fun x => (e x : ℚ)) := by
    intro x ct
    have hB : B x.1 ^ 2 = B x.1 := by
      simp only [B]; split <;> norm_num
    have hv1 : dn.Var (fun y => (epNoise b X e₀ e (EpTuple.sample (x, ct, y)) c : ℚ)) =
        B x.1 ^ 2 * d.Var (fun x => (e₀ x : ℚ)) + Q ct * de.Var (fun x => (e x : ℚ)) := by
      rw [Var_congr dn (hY x ct), hdn,
        Var_prod_add (iid N d) _ (fun z : Fin N → α => B x.1 * ρ x.2 ct + B x.1 * (e₀ (z c) : ℚ))
          (fun z : Fin l → Fin (k + 1) → Fin N → ε =>
        ∑ j, ∑ r, ∑ a, rowsCf b l ct c j r a * (e (z j r a) : ℚ)),
        Var_lin3 de (fun x => (e x : ℚ)) (fun j r a => rowsCf b l ct c j r a), Var_const_add, Var_cmul]
      congr 2
      rw [Var_eq, Var_eq, iid, E_pi_one (fun _ => d) c (fun x => (e₀ x : ℚ)),
        E_pi_one (fun _ => d) c (fun x => (e₀ x : ℚ) ^ 2)]
    rw [Var_eq, hmean, mul_pow, hB] at hv1
    linarith
  -- over the ciphertext
  let M : (Fin k → Fin N → κ) → ℚ := fun s => ∑ i, ∑ a : Fin N, eps c a * (X (s i a) : ℚ)
  let S2 : (Fin k → Fin N → κ) → ℚ := fun s => ∑ i, ∑ a, 1 * (X (s i a) : ℚ) ^ 2
  have hρ : ∀ s, dc.E (ρ s) = (1 - M s) / 2 := by
    intro s
    rw [hdc, E_lin2 (uniform (BitVec w)) (fun x => (roundErr b l x : ℚ)) (roundCf X s c), roundCf_sum,
      E_roundErr b l hv]
    simp only [M]; ring
  have hρ2 : ∀ s, dc.E (fun ct => ρ s ct ^ 2) =
      (S2 s + 1) * (((2 ^ (w - b * l) : ℚ) ^ 2 - 1) / 12) + ((1 - M s) / 2) ^ 2 := by
    intro s
    have h1 : dc.Var (ρ s) = (S2 s + 1) * (((2 ^ (w - b * l) : ℚ) ^ 2 - 1) / 12) := by
      rw [hdc, Var_lin2 (uniform (BitVec w)) (fun x => (roundErr b l x : ℚ)) (roundCf X s c), roundCf_sq,
        Var_roundErr b hv]
    rw [Var_eq, hρ] at h1
    linarith
  -- over the key
  have hM : ds.E M = k * dk.E (fun x => (X x : ℚ)) * (2 * (c : ℚ) + 2 - N) := by
    rw [hds, E_lin2 dk (fun x => (X x : ℚ)) (fun (_ : Fin k) (a : Fin N) => eps c a), Finset.sum_const, sum_eps_coef]
    simp; ring
  have hMv : ds.Var M = k * N * dk.Var (fun x => (X x : ℚ)) := by
    rw [hds, Var_lin2 dk (fun x => (X x : ℚ)) (fun (_ : Fin k) (a : Fin N) => eps c a)]
    simp only [sq, eps_sq]
    simp
  have hS2 : ds.E S2 = k * N * dk.E (fun x => (X x : ℚ) ^ 2) := by
    rw [hds, E_lin2 dk (fun x => (X x : ℚ) ^ 2) (fun (_ : Fin k) (_ : Fin N) => 1)]
    simp
  have hBE : (uniform Bool).E B = 1 / 2 := by
    rw [E_uniform]; simp [B]
  have hQ : dc.E Q = (k + 1) * N * ∑ j ∈ Finset.range l, meanSq (2 ^ b) j := rowsCf_E b hv c
  have hE1 : (epDist w N k l d dk de).E (fun ω => (epNoise b X e₀ e ω.sample c : ℚ)) =
      1 / 2 * ((1 - ds.E M) / 2) := by
    rw [epDist, E_prod, E_congr _ (Y := fun x : Bool × (Fin k → Fin N → κ) => B x.1 * ((1 - M x.2) / 2))
      (fun x => by
        rw [E_prod, E_congr dc (Y := fun ct => B x.1 * ρ x.2 ct) (hmean x), E_mul_left]
        rw [show (dc.E fun ct => ρ x.2 ct) = dc.E (ρ x.2) from rfl, hρ]),
      E_prod_mul (uniform Bool) ds B (fun s => (1 - M s) / 2), hBE,
      E_congr ds (X := fun s => (1 - M s) / 2) (Y := fun s => 1 / 2 + (-1 / 2) * M s) (fun s => by ring),
      E_add, E_const, E_mul_left]
    ring
  have hE2 : (epDist w N k l d dk de).E (fun ω => (epNoise b X e₀ e ω.sample c : ℚ) ^ 2) =
      1 / 2 * ((ds.E S2 + 1) * (((2 ^ (w - b * l) : ℚ) ^ 2 - 1) / 12) +
        (ds.Var M + (1 - ds.E M) ^ 2) / 4 + d.Var (fun x => (e₀ x : ℚ))) +
        dc.E Q * de.Var (fun x => (e x : ℚ)) := by
    rw [epDist, E_prod, E_congr _ (Y := fun x : Bool × (Fin k → Fin N → κ) =>
      B x.1 * ((S2 x.2 + 1) * (((2 ^ (w - b * l) : ℚ) ^ 2 - 1) / 12) + ((1 - M x.2) / 2) ^ 2 +
        d.Var (fun x => (e₀ x : ℚ))) + dc.E Q * de.Var (fun x => (e x : ℚ)))
      (fun x => by
        rw [E_prod, E_congr dc (hsq x), E_add, E_add, E_mul_left, E_const, E_mul_right, hρ2]
        ring), E_add, E_const,
      E_prod_mul (uniform Bool) ds B (fun s => (S2 s + 1) * (((2 ^ (w - b * l) : ℚ) ^ 2 - 1) / 12) +
        ((1 - M s) / 2) ^ 2 + d.Var (fun x => (e₀ x : ℚ))), hBE,
      E_congr ds (X := fun s => (S2 s + 1) * (((2 ^ (w - b * l) : ℚ) ^ 2 - 1) / 12) +
        ((1 - M s) / 2) ^ 2 + d.Var (fun x => (e₀ x : ℚ)))
        (Y := fun s => S2 s * (((2 ^ (w - b * l) : ℚ) ^ 2 - 1) / 12) + (1 / 4) * M s ^ 2 + (-1 / 2) * M s +
          (((2 ^ (w - b * l) : ℚ) ^ 2 - 1) / 12 + 1 / 4 + d.Var (fun x => (e₀ x : ℚ)))) (fun s => by ring),
      E_add, E_add, E_add, E_const, E_mul_left, E_mul_left, E_mul_right, Var_eq ds]
    rw [show (ds.E fun s => S2 s) = ds.E S2 from rfl, show (ds.E fun s => M s) = ds.E M from rfl]
    ring
  rw [Var_eq, hE1, hE2, hM, hMv, hS2, hQ]
  ring

/-- Centred keys (ternary, Gaussian) or the last coefficient: the estimate is never too small. -/
theorem ep_upper (b : Nat) (hv : ValidParams w b l) (K : KeyDispersion) (d : Dist α) (de : Dist ε)
    (e₀ : α → Int) (e : ε → Int) (c : Fin N) (hc : K.expCoef = 0 ∨ (c : Nat) = N - 1) :
    modVar (externalProductNoise K N k (ofModVar (d.Var fun x => (e₀ x : ℚ)) w)
          (ofModVar (de.Var fun x => (e x : ℚ)) w) b l w) w -
        (k + 1) * N * (de.Var fun x => (e x : ℚ)) * digitGap (2 ^ b) l +
        1 / 16 * ((1 - k * K.expCoef * (2 * (c : ℚ) + 2 - N)) ^ 2 - (1 - k * K.expCoef * N) ^ 2) ≤
    modVar (externalProductNoise K N k (ofModVar (d.Var fun x => (e₀ x : ℚ)) w)
          (ofModVar (de.Var fun x => (e x : ℚ)) w) b l w) w := by
  have hVar : 0 ≤ de.Var fun x => (e x : ℚ) :=
    Finset.sum_nonneg fun x _ => mul_nonneg (de.nonneg x) (sq_nonneg _)
  have h1 : 0 ≤ ((k : ℚ) + 1) * N * (de.Var fun x => (e x : ℚ)) * digitGap (2 ^ b) l :=
    mul_nonneg (mul_nonneg (by positivity) hVar) (digitGap_nonneg _ (base_ge b hv.base) l)
  have h2 : (1 - k * K.expCoef * (2 * (c : ℚ) + 2 - N)) ^ 2 - (1 - k * K.expCoef * N) ^ 2 = 0 := by
    rcases hc with h | h
    · rw [h]; ring
    · have hc2 := c.2
      have : (c : ℚ) = N - 1 := by
        rw [h, Nat.cast_sub (by omega)]; simp
      rw [this]; ring
  rw [h2]
  linarith

/-- Binary keys: the constant coefficient of an external product with GLWE dimension 1 and one level
has a larger variance than the estimate, by `(N - 1) / 16` in units of the last place squared. -/
theorem ep_lower (b : Nat) (d : Dist α) (de : Dist ε)
    (e₀ : α → Int) (e : ε → Int) (hN : 2 ≤ N) (c : Fin N) (hc : (c : Nat) = 0) :
    modVar (externalProductNoise binaryKey N 1 (ofModVar (d.Var fun x => (e₀ x : ℚ)) w)
          (ofModVar (de.Var fun x => (e x : ℚ)) w) b 1 w) w <
    modVar (externalProductNoise binaryKey N 1 (ofModVar (d.Var fun x => (e₀ x : ℚ)) w)
          (ofModVar (de.Var fun x => (e x : ℚ)) w) b 1 w) w -
        ((1 : Nat) + 1) * N * (de.Var fun x => (e x : ℚ)) * digitGap (2 ^ b) 1 +
        1 / 16 * ((1 - (1 : Nat) * binaryKey.expCoef * (2 * (c : ℚ) + 2 - N)) ^ 2 -
          (1 - (1 : Nat) * binaryKey.expCoef * N) ^ 2) := by
  have h1 : digitGap (2 ^ b) 1 = 0 := by simp [digitGap]
  have h2 : (1 - (1 : Nat) * binaryKey.expCoef * (2 * (c : ℚ) + 2 - N)) ^ 2 -
          (1 - (1 : Nat) * binaryKey.expCoef * N) ^ 2 = (N : ℚ) - 1 := by
    rw [hc]; simp only [binaryKey]; push_cast; ring
  rw [h1, h2]
  have : (2 : ℚ) ≤ N := by exact_mod_cast hN
  linarith

/-- C99. External product (any transform that computes products exactly) of a GGSW ciphertext of a uniform
bit with a GLWE ciphertext of uniform words, under a key whose coefficients have the mean and variance of
the kind of key `K`, all noises centred and bounded so that nothing wraps. The result is the bit times the
message of the input plus a noise polynomial `ν` (the only one with coefficients below `2^(w-1)`), and the
variance of coefficient `c` of this noise is the estimate, minus the deviation of the digits, plus the
difference between the squared mean of the rounding errors at `c` and the one of the estimate. For centred
keys (ternary, Gaussian), and for the last coefficient with any key, it does not exceed the estimate. -/
theorem C99_external_product (T : Pbs.Transform w) (b : Nat) (hN : 0 < N) (D : Int)
    (hT : T.Accurate N (l * (k + 1)) D 0) (hD : 2 ^ (b - 1) ≤ D) (hv : ValidParams w b l)
    (K : KeyDispersion) (d : Dist α) (dk : Dist κ) (de : Dist ε) (e₀ : α → Int) (X : κ → Int) (e : ε → Int)
    (hK : K.expCoef = dk.E fun x => (X x : ℚ)) (hKv : modVar (K.varCoef w) w = dk.Var fun x => (X x : ℚ))
    (h0 : d.E (fun x => (e₀ x : ℚ)) = 0) (he : de.E (fun x => (e x : ℚ)) = 0)
    (A₀ A₁ A₂ : Nat) (h₀ : ∀ x, |e₀ x| ≤ A₀) (h₁ : ∀ x, |X x| ≤ A₁) (h₂ : ∀ x, |e x| ≤ A₂)
    (hsmall : A₀ + (k * (N * A₁) + 1) * 2 ^ (w - b * l - 1) + l * ((k + 1) * (N * (A₂ * 2 ^ (b - 1)))) <
      2 ^ (w - 1))
    (out : List (BitVec w)) (ho : CtFits N k out) (ggsw : EpTuple w N k l α κ ε → List (BitVec w))
    (hg : ∀ ω, GgswEnc N k b l (ω.sample.keyList X) (ggsw ω) ω.sample.bitPoly (ω.sample.err e)) :
    ∃ ν : EpTuple w N k l α κ ε → Fin N → Int,
      (∀ ω c, |ν ω c| < 2 ^ (w - 1)) ∧
      (∀ ω, glwePhase N k (ω.sample.keyList X)
          (Pbs.externalProduct T N k b l out (Pbs.convert T N (ggsw ω)) ω.sample.ctList) =
        glwePhase N k (ω.sample.keyList X) out +
          ω.sample.bitPoly * (glwePhase N k (ω.sample.keyList X) ω.sample.ctList -
            polyOf w fun c => e₀ (ω.sample.noise c)) + polyOf w (ν ω)) ∧
      ∀ c : Fin N, ∃ V, V = (epDist w N k l d dk de).Var (fun ω => (ν ω c : ℚ)) ∧
      ∃ est, est = modVar (externalProductNoise K N k (ofModVar (d.Var fun x => (e₀ x : ℚ)) w)
          (ofModVar (de.Var fun x => (e x : ℚ)) w) b l w) w ∧
      V = est - (k + 1) * N * (de.Var fun x => (e x : ℚ)) * digitGap (2 ^ b) l +
        1 / 16 * ((1 - k * K.expCoef * (2 * (c : ℚ) + 2 - N)) ^ 2 - (1 - k * K.expCoef * N) ^ 2) ∧
      (K.expCoef = 0 ∨ (c : Nat) = N - 1 → V ≤ est) := by
  have hsm : ((A₀ + (k * (N * A₁) + 1) * 2 ^ (w - b * l - 1) + l * ((k + 1) * (N * (A₂ * 2 ^ (b - 1)))) : Nat) :
      Int) < ((2 ^ (w - 1) : Nat) : Int) := by exact_mod_cast hsmall
  push_cast at hsm
  refine ⟨fun ω => epNoise b X e₀ e ω.sample, fun ω c => ?_, fun ω => ?_, fun c => ?_⟩
  · exact (epNoise_bound b hv X e₀ e A₀ A₁ A₂ h₀ h₁ h₂ ω.sample c).trans_lt hsm
  · exact ep_phase T b hN D hT hD hv X e₀ e ω.sample out (ggsw ω) ho (hg ω)
  · have key : (epDist w N k l d dk de).Var (fun ω => (epNoise b X e₀ e ω.sample c : ℚ)) =
        modVar (externalProductNoise K N k (ofModVar (d.Var fun x => (e₀ x : ℚ)) w)
          (ofModVar (de.Var fun x => (e x : ℚ)) w) b l w) w -
        (k + 1) * N * (de.Var fun x => (e x : ℚ)) * digitGap (2 ^ b) l +
        1 / 16 * ((1 - k * K.expCoef * (2 * (c : ℚ) + 2 - N)) ^ 2 - (1 - k * K.expCoef * N) ^ 2) := by
      rw [ep_variance b hv d dk de e₀ X e h0 he c, sum_meanSq, externalProductNoise]
      simp only [modVar_ofModVar]
      rw [hKv, hK, Var_eq dk]
      have hq : (2 ^ (2 * w) : ℚ) = (2 ^ (w - b * l) : ℚ) ^ 2 * 2 ^ (b * 2 * l) := by
        rw [← pow_mul, ← pow_add]; congr 1
        have := hv.fits
        rw [show b * 2 * l = b * l * 2 by ring]; omega
      have h2 : (2 ^ (b * 2 * l) : ℚ) ≠ 0 := by positivity
      rw [hq, square, square, square]
      field_simp
      ring
    exact ⟨_, rfl, _, rfl, key, fun hc => key.le.trans (ep_upper b hv K d de e₀ e c hc)⟩

/-- C99, binary keys: without any noise in the input and in the GGSW ciphertext, one level and GLWE
dimension 1, the variance of the constant coefficient exceeds the estimate (by `(N - 1) / 16` in units of the
last place squared). -/
theorem C99_constant_coefficient_violated (b : Nat) (hN : 2 ≤ N) (hv : ValidParams w b 1)
    (hsmall : (N + 1) * 2 ^ (w - b - 1) < 2 ^ (w - 1))
    (out : List (BitVec w)) (ho : CtFits N 1 out) (ggsw : EpTuple w N 1 1 Unit Bool Unit → List (BitVec w))
    (hg : ∀ ω, GgswEnc N 1 b 1 (ω.sample.keyList fun x => if x then 1 else 0) (ggsw ω) ω.sample.bitPoly
      (ω.sample.err fun _ => 0)) :
    ∃ ν : EpTuple w N 1 1 Unit Bool Unit → Fin N → Int,
      (∀ ω c, |ν ω c| < 2 ^ (w - 1)) ∧
      (∀ ω, glwePhase N 1 (ω.sample.keyList fun x => if x then 1 else 0)
          (Pbs.externalProduct (Pbs.exactTransform w N) N 1 b 1 out
            (Pbs.convert (Pbs.exactTransform w N) N (ggsw ω)) ω.sample.ctList) =
        glwePhase N 1 (ω.sample.keyList fun x => if x then 1 else 0) out +
          ω.sample.bitPoly * glwePhase N 1 (ω.sample.keyList fun x => if x then 1 else 0) ω.sample.ctList +
          polyOf w (ν ω)) ∧
      modVar (externalProductNoise binaryKey N 1 0 0 b 1 w) w <
        (epDist w N 1 1 (uniform Unit) (uniform Bool) (uniform Unit)).Var
          (fun ω => (ν ω ⟨0, by omega⟩ : ℚ)) := by
  have hX : (fun x : Bool => ((if x then 1 else 0 : Int) : ℚ)) = bitValue := by
    funext x; cases x <;> simp [bitValue]
  have h0 : (uniform Unit).E (fun _ => (((0 : Int)) : ℚ)) = 0 := by rw [E_const]; rfl
  have h1 : (uniform Unit).Var (fun _ => (((0 : Int)) : ℚ)) = 0 := by rw [Var, E_const]; simp [E_const]
  obtain ⟨ν, n1, n2, n3⟩ := C99_external_product (Pbs.exactTransform w N) b (by omega) (2 ^ (b - 1))
    (Pbs.exact_accurate N _ (by omega) _) le_rfl hv binaryKey (uniform Unit) (uniform Bool) (uniform Unit)
    (fun _ => 0) (fun x => if x then 1 else 0) (fun _ => 0) (by rw [hX]; exact C96_binary.expCoef)
    (by rw [hX]; exact C96_binary.varCoef w) h0 h0 0 1 0 (by simp) (by intro x; cases x <;> simp) (by simp)
    (by simpa using hsmall) out ho ggsw hg
  refine ⟨ν, n1, fun ω => ?_, ?_⟩
  · rw [n2 ω, show (polyOf w fun _ : Fin N => (0 : Int)) = 0 by
      rw [polyOf]; simpa using toRq_zero (R := BitVec w) N N, sub_zero]
  · obtain ⟨V, hV, est, hest, key, -⟩ := n3 ⟨0, by omega⟩
    have h2 := ep_lower (w := w) b (uniform Unit) (uniform Unit) (fun _ => 0) (fun _ => 0) hN ⟨0, by omega⟩ rfl
    have h3 : ofModVar 0 w = 0 := by simp [ofModVar]
    rw [← hV, key, hest]
    simp only [h1, h3] at h2 ⊢
    exact h2

/-! ### The hypotheses can be met -/

/-- Every draw has a GGSW ciphertext with the drawn noises. -/
theorem exists_ggsw (hN : 0 < N) (b : Nat) (key : List (BitVec w)) (μ : Rq (BitVec w) N)
    (err : Nat → Nat → Rq (BitVec w) N) : ∃ ggsw, GgswEnc N k b l key ggsw μ err := by
  choose v hv1 hv2 using fun j r => exists_toRq hN
    (μ * 2 ^ (w - b * (j + 1)) * rowFactor N k key r + err j r)
  let row : Nat → Nat → List (BitVec w) := fun j r => List.replicate (k * N) 0 ++ v j r
  let mat : Nat → List (BitVec w) := fun j => ((List.range (k + 1)).map (row j)).flatten
  have hrow : ∀ j r, (row j r).length = (k + 1) * N := by
    intro j r; simp only [row, List.length_append, List.length_replicate, hv1]; ring
  have hmat : ∀ j, (mat j).length = (k + 1) * ((k + 1) * N) := by
    intro j
    simp only [mat]
    rw [flatten_length_uniform ((k + 1) * N)]
    · simp
    · intro x hx
      obtain ⟨r, -, rfl⟩ := List.mem_map.1 hx
      exact hrow j r
  refine ⟨((List.range l).map mat).flatten, ?_, ?_⟩
  · rw [flatten_length_uniform ((k + 1) * ((k + 1) * N))]
    · simp
    · intro x hx
      obtain ⟨j, -, rfl⟩ := List.mem_map.1 hx
      exact hmat j
  · intro j hj r hr
    have h1 : block ((k + 1) * ((k + 1) * N)) ((List.range l).map mat).flatten j = mat j := by
      apply block_flatten _ (by positivity)
      · intro x hx
        obtain ⟨j, -, rfl⟩ := List.mem_map.1 hx
        exact hmat j
      · simp [List.getElem?_range hj]
    have h2 : block ((k + 1) * N) (mat j) r = row j r := by
      apply block_flatten _ (by positivity)
      · intro x hx
        obtain ⟨r, -, rfl⟩ := List.mem_map.1 hx
        exact hrow j r
      · simp [List.getElem?_range (show r < k + 1 by omega)]
    rw [ggswRow, h1, h2, glwePhase, ← hv2]
    have hb : block N (row j r) k = v j r := by
      simp only [block, row]
      rw [List.drop_append_of_le_length (by simp), List.drop_of_length_le (by simp), List.nil_append,
        List.take_of_length_le (by rw [hv1])]
    have hm : ∀ i ∈ Finset.range k, toRq N (block N (row j r) i) * toRq N (block N key i) = 0 := by
      intro i hi
      have hi' := Finset.mem_range.1 hi
      have hle : (i + 1) * N ≤ k * N := Nat.mul_le_mul_right N hi'
      rw [Nat.succ_mul] at hle
      have : block N (row j r) i = List.replicate N 0 := by
        simp only [block, row]
        rw [List.drop_append_of_le_length (by simp; omega), List.drop_replicate,
          List.take_append_of_le_length (by simp; omega), List.take_replicate]
        congr 1; omega
      rw [this, toRq_zero, zero_mul]
    rw [hb, Finset.sum_eq_zero hm, sub_zero]

-- the bounds for a 64-bit parameter set: N = 1024, k = 1, 3 levels of 7 bits, noises up to 2^25
example : ValidParams 64 7 3 ∧ 2 ^ 25 + (1 * (1024 * 1) + 1) * 2 ^ (64 - 7 * 3 - 1) +
    3 * ((1 + 1) * (1024 * (2 ^ 25 * 2 ^ (7 - 1)))) < 2 ^ (64 - 1) :=
  ⟨⟨by decide, by decide, by decide⟩, by norm_num⟩

-- the hypotheses of the violation, for 32 bits, N = 256 and one level of 10 bits
example : ValidParams 32 10 1 ∧ (256 + 1) * 2 ^ (32 - 10 - 1) < 2 ^ (32 - 1) :=
  ⟨⟨by decide, by decide, by decide⟩, by decide⟩

-- the transform that computes the products directly is exact
example : (Pbs.exactTransform 64 1024).Accurate 1024 (3 * (1 + 1)) (2 ^ 6) 0 :=
  Pbs.exact_accurate 1024 _ (by omega) _

-- binary keys and noises of two values meet the other hypotheses
example : binaryKey.expCoef = (uniform Bool).E (fun x => ((if x then 1 else 0 : Int) : ℚ)) ∧
    modVar (binaryKey.varCoef 64) 64 = (uniform Bool).Var (fun x => ((if x then 1 else 0 : Int) : ℚ)) ∧
    (uniform Bool).E (fun x => ((if x then 2 ^ 25 else -2 ^ 25 : Int) : ℚ)) = 0 := by
  have hX : (fun x : Bool => ((if x then 1 else 0 : Int) : ℚ)) = bitValue := by
    funext x; cases x <;> simp [bitValue]
  rw [hX]
  refine ⟨C96_binary.expCoef, C96_binary.varCoef 64, ?_⟩
  rw [E_uniform]; simp

end Verif.Npe
